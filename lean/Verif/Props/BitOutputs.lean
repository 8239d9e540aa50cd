import Verif.Lemmas.BitOutputs
import Verif.Lemmas.Twin
import Verif.Props.Inference
/-
C57: the overloads of the bitwise clause output routines that store into a bit vector.
-/
namespace Tsetlini
open Res Spec

variable {t : Tile} {M : PMatrix} {X : BitVector} {a b : Nat} {out : List Block} {v : Nat → Bool}

private theorem evals (hv : ∀ o, a ≤ o → o < b → bitwise.clauseOut t M o X = .ok (v o)) :
    ∀ o ∈ range a b, (bitCode t X.contentBlocks o).eval M.pol X.blocks = .ok (v o) := by
  intro o ho
  rw [mem_range] at ho
  rw [bitCode_eval]
  exact hv o ho.1 ho.2

private theorem rooms {out : List Block} (hb : b ≤ 64 * out.length) : ∀ o ∈ range a b, o / 64 < out.length := by
  intro o ho
  rw [mem_range] at ho
  omega

/-- **C57**: run by one thread, the bit vector version stores the same outputs as the other one does as chars. -/
theorem C57_sequential (hv : ∀ o, a ≤ o → o < b → bitwise.clauseOut t M o X = .ok (v o)) (hb : b ≤ 64 * out.length) :
    ∃ out', bitOutputs t M X a b out = .ok out' ∧ out'.length = out.length ∧
      ∀ j, bitAt out' j = if a ≤ j ∧ j < b then v j else bitAt out j := by
  obtain ⟨out', e, h1, h2, h3⟩ := iter_range'_ret (σ := List Block)
    (f := fun o out => (bitwise.clauseOut t M o X).bind fun v => bitAssign out o v)
    (P := fun m o => o.length = out.length ∧ (∀ j, a ≤ j → j < m → bitAt o j = v j) ∧ ∀ j, j < a ∨ m ≤ j → bitAt o j = bitAt out j)
    (b - a) a out ⟨rfl, fun j h1 h2 => by omega, fun _ _ => rfl⟩
    (by
      rintro m ha hm o ⟨h0, h1, h2⟩
      rw [hv m ha (by omega), ok_bind]
      obtain ⟨o', e, g1, g2⟩ := bitAssign_ret (v := o) (pos := m) (v m) (by omega)
      refine ⟨o', e, by omega, fun j hj1 hj2 => ?_, fun j hj => ?_⟩
      · rw [g2]
        by_cases hjm : j = m
        · subst hjm; simp
        · rw [if_neg hjm, h1 j hj1 (by omega)]
      · rw [g2, if_neg (by omega), h2 j (by omega)])
  refine ⟨out', e, h1, fun j => ?_⟩
  by_cases hj : a ≤ j ∧ j < b
  · rw [if_pos hj, h2 j hj.1 (by omega)]
  · rw [if_neg hj, h3 j (by omega)]

/-- **C57**: the version with pruning does not change its argument, whatever the outputs. -/
theorem C57_by_value {n : Nat} {w : Nat → Bool} (hv : ∀ o, o < n → bitwise.clauseOutPruned t M o X = .ok (w o))
    (hb : n ≤ 64 * out.length) : bitOutputsPruned t M X n out = .ok out := by
  obtain ⟨out', e, -⟩ := iter_range_ret (σ := List Block)
    (f := fun o out => (bitwise.clauseOutPruned t M o X).bind fun v => bitAssign out o v)
    (P := fun _ o => o.length = out.length) n out rfl
    (by
      rintro m hm o h0
      rw [hv m (by omega), ok_bind]
      obtain ⟨o', e, g1, g2⟩ := bitAssign_ret (v := o) (pos := m) (w m) (by omega)
      exact ⟨o', e, by omega⟩)
  show (bitOutputsPrunedLoop t M X n out).bind (fun _ => .ok out) = .ok out
  unfold bitOutputsPrunedLoop
  rw [e, ok_bind]

variable {R₀ : BitRegion Block Block}

/-- **C57**: if no two threads have bits in the same block, the parallel loop is correct: whatever the interleaving, there is no
race and no undefined behaviour, all threads reach the barrier, and the outputs are those of a single thread. -/
theorem C57_apart (hv : ∀ o, a ≤ o → o < b → bitwise.clauseOut t M o X = .ok (v o)) (hb : b ≤ 64 * out.length)
    (h0 : BitTeamOf a b out R₀) (hA : Apart R₀) :
    ∃ total, ∀ n R, BitExecution M.pol X.blocks (bitCode t X.contentBlocks) n R₀ R →
      ¬ BitRace R ∧ ¬ BitFaulty M.pol X.blocks (bitCode t X.contentBlocks) R ∧ n ≤ total ∧ (BitJoined R ↔ n = total) ∧
      (¬ BitJoined R → ∃ R', BitRegion.Step M.pol X.blocks (bitCode t X.contentBlocks) R R') ∧
      (BitJoined R → bitOutputs t M X a b out = .ok R.out) := by
  refine ⟨R₀.work M.pol X.blocks (bitCode t X.contentBlocks), fun n R he => ?_⟩
  obtain ⟨hw, done, hi⟩ := BitInv.execution (evals hv) (rooms hb) he (BitInv.start h0 hA)
  have hj : BitJoined R ↔ n = R₀.work M.pol X.blocks (bitCode t X.contentBlocks) := by
    rw [bit_work_zero (rows := M.pol) (x := X.blocks) (body := bitCode t X.contentBlocks)]
    omega
  refine ⟨hi.noRace, ?_, by omega, hj, fun hn => ?_, fun hjn => ?_⟩
  · rintro ⟨u, hu, r, hr, hne⟩
    rcases hi.threadOk (evals hv) (rooms hb) hu with ⟨-, -, e⟩ | ⟨t', out', e, -⟩
    · rw [e] at hr; cases hr
    · rw [e] at hr
      injection hr with hr
      exact hne _ hr.symm
  · apply Classical.byContradiction
    intro hno
    apply hn
    intro u hu
    rcases hi.threadOk (evals hv) (rooms hb) hu with ⟨h1, h2, -⟩ | ⟨t', out', e, -⟩
    · exact ⟨h1, h2⟩
    · obtain ⟨i, hi⟩ := List.mem_iff_getElem?.1 hu
      exact absurd ⟨_, i, u, t', out', hi, e, rfl⟩ hno
  · obtain ⟨out', e, h1, h2⟩ := C57_sequential hv hb
    rw [e]
    congr 1
    have hl := hi.len
    apply List.ext_getElem (by omega)
    intro q hq1 hq2
    apply BitVec.eq_of_getLsbD_eq
    intro k hk
    have e1 : ∀ {w : List Block} (hq : q < w.length), (w[q]).getLsbD k = bitAt w (q * 64 + k) := by
      intro w hq
      unfold bitAt
      rw [show (q * 64 + k) / 64 = q by omega, show (q * 64 + k) % 64 = k by omega]
      simp [hq]
    rw [e1 hq1, e1 hq2, h2, hi.joined hjn]

/-- The two threads of a team that share a block, brought to where one is about to write it and the other to read it. -/
private theorem meet (hv : ∀ o, a ≤ o → o < b → bitwise.clauseOut t M o X = .ok (v o)) (hb : b ≤ 64 * out.length)
    (h0 : BitTeamOf a b out R₀) {i j o p : Nat} {ti tj : BitThread Block Block} (hij : i ≠ j) (hi : R₀.threads[i]? = some ti)
    (hj : R₀.threads[j]? = some tj) (ho : o ∈ ti.todo) (hp : p ∈ tj.todo) :
    ∃ n ti' tj' out', BitExecution M.pol X.blocks (bitCode t X.contentBlocks) n R₀ ⟨(R₀.threads.set i ti').set j tj', out'⟩ ∧
      ti'.cur = some (o, .run (.ret (v o))) ∧ tj'.cur = some (p, .run (.ret (v p))) ∧ out'.length = out.length ∧
      (∃ l, ti.todo = l ++ o :: ti'.todo) ∧ (∃ l, tj.todo = l ++ p :: tj'.todo) ∧ bitAt out' o = bitAt out o := by
  obtain ⟨h1, h2, h3⟩ := h0
  have hnd : (R₀.threads.flatMap (·.todo)).Nodup := h3.nodup_iff.2 (range_nodup a b)
  have hin : ∀ {u : BitThread Block Block}, u ∈ R₀.threads → ∀ q ∈ u.todo, q ∈ range a b := fun hu q hq =>
    h3.mem_iff.1 (List.mem_flatMap.2 ⟨_, hu, hq⟩)
  have hci := h2 _ (List.mem_of_getElem? hi)
  have hcj := h2 _ (List.mem_of_getElem? hj)
  -- an iteration belongs to one thread
  have key : ∀ {i j : Nat} {ti tj : BitThread Block Block} {o : Nat}, i < j → R₀.threads[i]? = some ti → R₀.threads[j]? = some tj →
      o ∈ ti.todo → o ∈ tj.todo → False := by
    intro i j ti tj o hlt hi hj h1 h2
    obtain ⟨l1, l2, hl, hlen, -⟩ := split_at hi
    rw [hl] at hj
    have hnd' := hnd
    rw [hl] at hnd'
    rw [List.getElem?_append_right (by omega)] at hj
    have : j - l1.length = (j - l1.length - 1) + 1 := by omega
    rw [this, List.getElem?_cons_succ] at hj
    have hm := List.mem_of_getElem? hj
    rw [List.flatMap_append, List.flatMap_cons] at hnd'
    have hnd2 := (List.nodup_append.1 hnd').2.1
    exact (List.nodup_append.1 hnd2).2.2 o h1 o (List.mem_flatMap.2 ⟨tj, hm, h2⟩) rfl
  have hoj : o ∉ tj.todo := by
    intro hm
    rcases Nat.lt_or_gt_of_ne hij with hlt | hlt
    · exact key hlt hi hj ho hm
    · exact key hlt hj hi hm ho
  obtain ⟨ti', out1, e1, c1, l1, ⟨s1, s2, s3⟩, b1⟩ := solo_reach (o := o) (evals hv) ti out (rooms hb)
    (by rw [owns_of_none hci]; exact hin (List.mem_of_getElem? hi)) (by intro _ _ e; rw [hci] at e; cases e)
    (by intro _ _ e; rw [hci] at e; cases e) (by rw [owns_of_none hci]; exact ho) (by simp [hci])
  obtain ⟨tj', out2, e2, c2, l2, ⟨r1, r2, r3⟩, b2⟩ := solo_reach (o := p) (evals hv) tj out1 (rooms (by omega))
    (by rw [owns_of_none hcj]; exact hin (List.mem_of_getElem? hj)) (by intro _ _ e; rw [hcj] at e; cases e)
    (by intro _ _ e; rw [hcj] at e; cases e) (by rw [owns_of_none hcj]; exact hp) (by simp [hcj])
  obtain ⟨n, x1⟩ := e1.lift (l := R₀.threads) (i := i) hi
  obtain ⟨m, x2⟩ := e2.lift (l := R₀.threads.set i ti') (i := j) (by rw [List.getElem?_set_ne hij]; exact hj)
  rw [← h1] at x1
  refine ⟨n + m, ti', tj', out2, x1.trans x2, c1, c2, by omega, ⟨s1, ?_⟩, ⟨r1, ?_⟩, ?_⟩
  · rw [owns_of_none hci] at s2
    rw [s2]
    simp [BitThread.owns, c1]
  · rw [owns_of_none hcj] at r2
    rw [r2]
    simp [BitThread.owns, c2]
  · rw [b2 o (.inl (by rw [owns_of_none hcj]; exact hoj)), b1 o (.inr rfl)]

private theorem step_at {l : List (BitThread Block Block)} {out out' : List Block} {i : Nat} {u u' : BitThread Block Block}
    (hi : l[i]? = some u) (hs : u.step M.pol X.blocks (bitCode t X.contentBlocks) out = some (.ok (u', out'))) :
    BitExecution M.pol X.blocks (bitCode t X.contentBlocks) 1 ⟨l, out⟩ ⟨l.set i u', out'⟩ :=
  .step (.refl _) ⟨i, u, u', out', hi, hs, rfl⟩

/-- **C57**: a data race is possible exactly if two threads have bits in the same block. -/
theorem C57_race (hv : ∀ o, a ≤ o → o < b → bitwise.clauseOut t M o X = .ok (v o)) (hb : b ≤ 64 * out.length)
    (h0 : BitTeamOf a b out R₀) :
    (∃ n R, BitExecution M.pol X.blocks (bitCode t X.contentBlocks) n R₀ R ∧ BitRace R) ↔ ¬ Apart R₀ := by
  constructor
  · rintro ⟨n, R, he, hr⟩ hA
    obtain ⟨-, done, hi⟩ := BitInv.execution (evals hv) (rooms hb) he (BitInv.start h0 hA)
    exact hi.noRace hr
  · intro hA
    apply Classical.byContradiction
    intro hno
    apply hA
    intro i j ti tj hij hi hj o ho p hp heq
    apply hno
    obtain ⟨n, ti', tj', out', e, c1, c2, hl, -⟩ := meet hv hb h0 hij hi hj ho hp
    have hin : o ∈ range a b := h0.2.2.mem_iff.1 (List.mem_flatMap.2 ⟨_, List.mem_of_getElem? hi, ho⟩)
    have hlt : o / 64 < out'.length := by rw [hl]; exact rooms hb o hin
    have hil : i < R₀.threads.length := (List.getElem?_eq_some_iff.1 hi).1
    have hjl : j < R₀.threads.length := (List.getElem?_eq_some_iff.1 hj).1
    have x1 := step_at (M := M) (X := X) (t := t) (l := (R₀.threads.set i ti').set j tj') (out := out') (i := i) (u := ti')
      (u' := ⟨ti'.todo, some (o, .store (assignBlock out'[o / 64] o (v o)))⟩) (out' := out')
      (by rw [List.getElem?_set_ne (Ne.symm hij)]; simp [hil])
      (by simp [BitThread.step, c1, rd_ok hlt, Res.bind])
    refine ⟨_, _, e.trans x1, i, j, ⟨ti'.todo, some (o, .store (assignBlock out'[o / 64] o (v o)))⟩, tj', .block (o / 64), true, false, hij, ?_, ?_, rfl, ?_, .inl rfl⟩
    · simp [hil]
    · rw [List.getElem?_set_ne hij]; simp [hjl]
    · simp [bitAccess, c2, heq]

/-- **C57**: then an output can be lost: if bits `o` and `p` of two threads are in the same block and the output of clause `o`
differs from what the bit vector held before, the loop can end with the old bit. -/
theorem C57_lost (hv : ∀ o, a ≤ o → o < b → bitwise.clauseOut t M o X = .ok (v o)) (hb : b ≤ 64 * out.length)
    (h0 : BitTeamOf a b out R₀) {i j o p : Nat} {ti tj : BitThread Block Block} (hij : i ≠ j) (hi : R₀.threads[i]? = some ti)
    (hj : R₀.threads[j]? = some tj) (ho : o ∈ ti.todo) (hp : p ∈ tj.todo) (heq : o / 64 = p / 64) (hne : v o ≠ bitAt out o) :
    ∃ n R, BitExecution M.pol X.blocks (bitCode t X.contentBlocks) n R₀ R ∧ BitJoined R ∧ bitAt R.out o ≠ v o := by
  obtain ⟨n, ti', tj', out', e, c1, c2, hl, ⟨l1, s1⟩, ⟨l2, s2⟩, hold⟩ := meet hv hb h0 hij hi hj ho hp
  have hin : o ∈ range a b := h0.2.2.mem_iff.1 (List.mem_flatMap.2 ⟨_, List.mem_of_getElem? hi, ho⟩)
  have hlt : o / 64 < out'.length := by rw [hl]; exact rooms hb o hin
  have hlt' : p / 64 < out'.length := by rw [← heq]; exact hlt
  have hil : i < R₀.threads.length := (List.getElem?_eq_some_iff.1 hi).1
  have hjl : j < R₀.threads.length := (List.getElem?_eq_some_iff.1 hj).1
  have hji : j ≠ i := Ne.symm hij
  have hnd : (R₀.threads.flatMap (·.todo)).Nodup := h0.2.2.nodup_iff.2 (range_nodup a b)
  have hpo : p ≠ o := by
    rintro rfl
    obtain ⟨k1, k2, hk, hlen, -⟩ := split_at hi
    rw [hk, List.flatMap_append, List.flatMap_cons] at hnd
    have hm : tj ∈ k1 ∨ tj ∈ k2 := by
      rw [hk] at hj
      rcases Nat.lt_or_gt_of_ne hij with hlt | hlt
      · rw [List.getElem?_append_right (by omega), show j - k1.length = (j - k1.length - 1) + 1 by omega, List.getElem?_cons_succ] at hj
        exact .inr (List.mem_of_getElem? hj)
      · rw [List.getElem?_append_left (by omega)] at hj
        exact .inl (List.mem_of_getElem? hj)
    rcases hm with hm | hm
    · exact (List.nodup_append.1 hnd).2.2 p (List.mem_flatMap.2 ⟨tj, hm, hp⟩) p (List.mem_append_left _ ho) rfl
    · exact (List.nodup_append.1 (List.nodup_append.1 hnd).2.1).2.2 p ho p (List.mem_flatMap.2 ⟨tj, hm, hp⟩) rfl
  -- both threads read the block, then both write it
  let bi := assignBlock out'[o / 64] o (v o)
  let bj := assignBlock out'[p / 64] p (v p)
  let L := (R₀.threads.set i ti').set j tj'
  have x1 := step_at (M := M) (X := X) (t := t) (l := L) (out := out') (i := i) (u := ti')
    (u' := ⟨ti'.todo, some (o, .store bi)⟩) (out' := out')
    (by show ((R₀.threads.set i ti').set j tj')[i]? = _; rw [List.getElem?_set_ne hji]; simp [hil])
    (by simp [BitThread.step, c1, rd_ok hlt, Res.bind, bi])
  have x2 := step_at (M := M) (X := X) (t := t) (l := L.set i ⟨ti'.todo, some (o, .store bi)⟩) (out := out') (i := j) (u := tj')
    (u' := ⟨tj'.todo, some (p, .store bj)⟩) (out' := out')
    (by rw [List.getElem?_set_ne hij]; simp [L, hjl])
    (by simp [BitThread.step, c2, rd_ok hlt', Res.bind, bj])
  have x3 := step_at (M := M) (X := X) (t := t) (l := (L.set i ⟨ti'.todo, some (o, .store bi)⟩).set j ⟨tj'.todo, some (p, .store bj)⟩)
    (out := out') (i := i) (u := ⟨ti'.todo, some (o, .store bi)⟩) (u' := ⟨ti'.todo, none⟩) (out' := out'.set (o / 64) bi)
    (by rw [List.getElem?_set_ne hji]; simp [L, hil])
    (by simp [BitThread.step, wr_ok hlt, Res.bind])
  have x4 := step_at (M := M) (X := X) (t := t)
    (l := ((L.set i ⟨ti'.todo, some (o, .store bi)⟩).set j ⟨tj'.todo, some (p, .store bj)⟩).set i ⟨ti'.todo, none⟩)
    (out := out'.set (o / 64) bi) (i := j) (u := ⟨tj'.todo, some (p, .store bj)⟩) (u' := ⟨tj'.todo, none⟩)
    (out' := (out'.set (o / 64) bi).set (p / 64) bj)
    (by rw [List.getElem?_set_ne hij]; simp [L, hjl])
    (by simp [BitThread.step, wr_ok (show p / 64 < (out'.set (o / 64) bi).length by simpa using hlt'), Res.bind])
  have hset : (((L.set i ⟨ti'.todo, some (o, .store bi)⟩).set j ⟨tj'.todo, some (p, .store bj)⟩).set i ⟨ti'.todo, none⟩).set j ⟨tj'.todo, none⟩
      = (R₀.threads.set i ⟨ti'.todo, none⟩).set j ⟨tj'.todo, none⟩ := by
    apply List.ext_getElem?
    intro q
    simp only [L, List.getElem?_set, List.length_set]
    by_cases h1 : j = q
    · simp [h1]
    · by_cases h2 : i = q
      · simp [h1, h2]
      · simp [h1, h2]
  rw [hset, ← heq, List.set_set] at x4
  have hget : ∀ u ∈ (R₀.threads.set i (⟨ti'.todo, none⟩ : BitThread Block Block)).set j ⟨tj'.todo, none⟩,
      u = ⟨ti'.todo, none⟩ ∨ u = ⟨tj'.todo, none⟩ ∨ ∃ q, q ≠ i ∧ q ≠ j ∧ R₀.threads[q]? = some u := by
    intro u hu
    obtain ⟨q, hq⟩ := List.mem_iff_getElem?.1 hu
    rw [List.getElem?_set, List.getElem?_set] at hq
    by_cases h1 : j = q
    · subst h1
      simp [hjl] at hq
      exact .inr (.inl hq.symm)
    · rw [if_neg h1] at hq
      by_cases h2 : i = q
      · subst h2
        simp [hil] at hq
        exact .inl hq.symm
      · rw [if_neg h2] at hq
        exact .inr (.inr ⟨q, fun e => h2 e.symm, fun e => h1 e.symm, hq⟩)
  obtain ⟨m, R, y1, y2, y3⟩ := team_finish (evals hv) ((R₀.threads.set i ⟨ti'.todo, none⟩).set j ⟨tj'.todo, none⟩)
    (out'.set (o / 64) bj) (rooms (by simp; omega))
    (by
      intro u hu
      rcases hget u hu with rfl | rfl | ⟨q, -, -, hq⟩
      · rfl
      · rfl
      · exact h0.2.1 u (List.mem_of_getElem? hq))
    (by
      have hr : ∀ {u : BitThread Block Block}, u ∈ R₀.threads → ∀ q ∈ u.todo, q ∈ range a b := fun hu q hq =>
        h0.2.2.mem_iff.1 (List.mem_flatMap.2 ⟨_, hu, hq⟩)
      intro u hu
      rcases hget u hu with rfl | rfl | ⟨q, -, -, hq⟩
      · intro z hz
        exact hr (List.mem_of_getElem? hi) z (by rw [s1]; simp only [List.mem_append, List.mem_cons]; exact .inr (.inr hz))
      · intro z hz
        exact hr (List.mem_of_getElem? hj) z (by rw [s2]; simp only [List.mem_append, List.mem_cons]; exact .inr (.inr hz))
      · exact hr (List.mem_of_getElem? hq))
  refine ⟨_, R, ((((e.trans x1).trans x2).trans x3).trans x4).trans y1, y2, ?_⟩
  have hmine : ∀ u ∈ (R₀.threads.set i (⟨ti'.todo, none⟩ : BitThread Block Block)).set j ⟨tj'.todo, none⟩, o ∉ u.todo := by
    have honce : ∀ {q : Nat} {u : BitThread Block Block}, q ≠ i → R₀.threads[q]? = some u → o ∉ u.todo := by
      intro q u hq hu hm
      obtain ⟨k1, k2, hk, hlen, -⟩ := split_at hi
      rw [hk, List.flatMap_append, List.flatMap_cons] at hnd
      have hm' : u ∈ k1 ∨ u ∈ k2 := by
        rw [hk] at hu
        rcases Nat.lt_or_gt_of_ne hq with hlt | hlt
        · rw [List.getElem?_append_left (by omega)] at hu
          exact .inl (List.mem_of_getElem? hu)
        · rw [List.getElem?_append_right (by omega), show q - k1.length = (q - k1.length - 1) + 1 by omega, List.getElem?_cons_succ] at hu
          exact .inr (List.mem_of_getElem? hu)
      rcases hm' with hm' | hm'
      · exact (List.nodup_append.1 hnd).2.2 o (List.mem_flatMap.2 ⟨u, hm', hm⟩) o (List.mem_append_left _ ho) rfl
      · exact (List.nodup_append.1 (List.nodup_append.1 hnd).2.1).2.2 o ho o (List.mem_flatMap.2 ⟨u, hm', hm⟩) rfl
    intro u hu
    rcases hget u hu with rfl | rfl | ⟨q, hqi, -, hq⟩
    · intro hm
      obtain ⟨k1, k2, hk, hlen, -⟩ := split_at hi
      rw [hk, List.flatMap_append, List.flatMap_cons] at hnd
      have h3 := (List.nodup_append.1 (List.nodup_append.1 hnd).2.1).1
      rw [s1] at h3
      exact (List.nodup_cons.1 (List.nodup_append.1 h3).2.1).1 hm
    · intro hm
      exact honce hji hj (by rw [s2]; simp only [List.mem_append, List.mem_cons]; exact .inr (.inr hm))
    · exact honce hqi hq
  rw [y3 o hmine]
  have h5 : bitAt (out'.set (o / 64) bj) o = bitAt out' o := by
    have := assignBlock_bits hlt' (v p) o
    rw [if_neg (fun e => hpo e.symm)] at this
    rw [← this, heq]
    have e6 : out'.getD (p / 64) 0#64 = out'[p / 64] := by simp [hlt']
    rw [e6]
  rw [h5, hold]
  exact fun e => hne e.symm

/-- Six clauses of a trained machine, shared out between two threads: they share the only block, and the output of
clause 5 can be lost. -/
example : (∀ o, 0 ≤ o → o < 6 → bitwise.clauseOut .t16 Toy.bc.ta.mat o ⟨3, [5#64]⟩ = .ok (decide (2 ≤ o))) ∧
    decide (2 ≤ 5) ≠ bitAt [0#64] 5 ∧
    BitTeamOf 0 6 [0#64] (⟨[⟨[0, 2, 5], none⟩, ⟨[3, 1, 4], none⟩], [0#64]⟩ : BitRegion Block Block) ∧
    ¬ Apart (⟨[⟨[0, 2, 5], none⟩, ⟨[3, 1, 4], none⟩], [0#64]⟩ : BitRegion Block Block) := by
  refine ⟨fun o _ h => ?_, by decide, ⟨rfl, by simp, by decide⟩, fun h => ?_⟩
  · have : ∀ o, o < 6 → bitwise.clauseOut .t16 Toy.bc.ta.mat o ⟨3, [5#64]⟩ = .ok (decide (2 ≤ o)) := by decide +kernel
    exact this o h
  · exact h 0 1 _ _ (by decide) rfl rfl 5 (by simp) 4 (by simp) (by decide)

/-- Threads of a static schedule with chunks of 64 iterations do not share blocks. -/
example : BitTeamOf 0 128 [0#64, 0#64] (⟨[⟨range 0 64, none⟩, ⟨range 64 128, none⟩], [0#64, 0#64]⟩ : BitRegion Block Block) ∧
    Apart (⟨[⟨range 0 64, none⟩, ⟨range 64 128, none⟩], [0#64, 0#64]⟩ : BitRegion Block Block) := by
  refine ⟨⟨rfl, by simp, by decide⟩, ?_⟩
  intro i j ti tj hij hi hj o ho p hp
  match i, j with
  | 0, 0 => exact absurd rfl hij
  | 1, 1 => exact absurd rfl hij
  | 0, 1 =>
    simp at hi hj
    subst hi; subst hj
    simp only [mem_range] at ho hp
    omega
  | 1, 0 =>
    simp at hi hj
    subst hi; subst hj
    simp only [mem_range] at ho hp
    omega
  | (k + 2), _ => simp at hi
  | _, (k + 2) => simp at hj

end Tsetlini
