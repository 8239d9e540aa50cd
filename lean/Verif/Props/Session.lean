import Verif.Lemmas.Session
import Verif.Props.LoadedText
/- Whole programs: C78. -/
namespace Tsetlini
open Res Spec

variable {a : Algo} {k : Kind} {env : Env} {gdoc : GenDoc env} {gio : GenIO env}

/-- **C78**: every method call of a program returns what it returns on an estimator that was made with the same parameters (or loaded from the same text from elsewhere) and put
through the training of its line, and nothing else. -/
theorem C78_answers (hg : FaithfulText gdoc gio) {cs : List (Cmd a.Sample k)} (hc : ∀ c ∈ cs, Proper a k gio c) {S : Session a.backend env} {told : List Told}
    (h : session a k gdoc gio cs = .ok (S, told)) {i : Nat} {sc : Sched} {e : Nat} {c : Call a.Sample k} (hi : cs[i]? = some (.call sc e c)) :
    ∃ l o, (followAll gio (cs.take i))[e]? = some (.owner true (some l)) ∧ told[i]? = some (.out o) ∧ l.Answers gio c o :=
  (session_inv hg cs hc h).2.2 i sc e c hi

/-- **C78**: what a variable owns is the state of an estimator that was made with the same parameters (or loaded from the same text from elsewhere) and put through the training of its
line; variables that were moved from own nothing. -/
theorem C78_objects (hg : FaithfulText gdoc gio) {cs : List (Cmd a.Sample k)} (hc : ∀ c ∈ cs, Proper a k gio c) {S : Session a.backend env} {told : List Told}
    (h : session a k gdoc gio cs = .ok (S, told)) (v : Nat) (b : Bool) :
    (∀ p, S.vars[v]? = some (.owner b (some p)) → ∃ l st, (followAll gio cs)[v]? = some (.owner b (some l)) ∧ S.heap[p]? = some (some st) ∧ l.Leads gio st) ∧
    (S.vars[v]? = some (.owner b none) ↔ (followAll gio cs)[v]? = some (.owner b none)) := by
  have hI := (session_inv hg cs hc h).1
  refine ⟨fun p hp => ?_, fun hv => ?_, fun ht => ?_⟩
  · obtain ⟨l, st, h1, h2, h3⟩ := hI.alive hp
    exact ⟨l, st, h1, h2, h3.leads⟩
  · obtain ⟨ol, h1⟩ := hI.owner hv
    cases ol with
    | none => exact h1
    | some l => exact (hI.agrees _ _ _ hv h1).elim
  · obtain ⟨p, h1⟩ := hI.ownerOf ht
    cases p with
    | none => exact h1
    | some p => exact (hI.agrees _ _ _ h1 ht).elim

/-- **C78**: trained objects of the same line compare equal (`==`), wherever they came from. -/
theorem C78_equal (hg : FaithfulText gdoc gio) {cs : List (Cmd a.Sample k)} (hc : ∀ c ∈ cs, Proper a k gio c) {S : Session a.backend env} {told : List Told}
    (h : session a k gdoc gio cs = .ok (S, told)) {v w p q : Nat} {b b' : Bool} {l : Line a.Sample k} (hl : (followAll gio cs)[v]? = some (.owner b (some l)))
    (hl' : (followAll gio cs)[w]? = some (.owner b' (some l))) (hv : OwnsAt S v p) (hw : OwnsAt S w q) (ht : l.Trained gio) :
    ∃ st st', S.heap[p]? = some (some st) ∧ S.heap[q]? = some (some st') ∧ EstState.CppEq k st st' := by
  have hI := (session_inv hg cs hc h).1
  obtain ⟨_, hv⟩ := hv
  obtain ⟨_, hw⟩ := hw
  obtain ⟨l1, st, h1, h2, h3⟩ := hI.alive hv
  obtain ⟨l2, st', h4, h5, h6⟩ := hI.alive hw
  rw [hl] at h1
  cases h1
  rw [hl'] at h4
  cases h4
  exact ⟨st, st', h2, h5, h3.equal h6 (h3.trained.1 ht)⟩

/-- **C78**: the states on the heap are exactly those that some variable owns, and each is owned by one variable only.  In particular nothing is left when all
variables are gone. -/
theorem C78_heap (hg : FaithfulText gdoc gio) {cs : List (Cmd a.Sample k)} (hc : ∀ c ∈ cs, Proper a k gio c) {S : Session a.backend env} {told : List Told}
    (h : session a k gdoc gio cs = .ok (S, told)) (p : Nat) :
    ((∃ st, S.heap[p]? = some (some st)) ↔ ∃ v, OwnsAt S v p) ∧ ∀ v w, OwnsAt S v p → OwnsAt S w p → v = w := by
  have hI := (session_inv hg cs hc h).1
  refine ⟨⟨fun ⟨st, hst⟩ => hI.owned p st hst, fun ⟨v, b, hv⟩ => ?_⟩, fun v w ⟨b, hv⟩ ⟨b', hw⟩ => hI.uniq v w p b b' hv hw⟩
  obtain ⟨l, st, -, h2, -⟩ := hI.alive hv
  exact ⟨st, h2⟩

/-- **C78**: after a program, a statement returns exactly if it is usable: in particular copying, saving, moving and destroying what is alive always do, no
statement touches a deleted state or deletes one twice. -/
theorem C78_returns (hg : FaithfulText gdoc gio) {cs : List (Cmd a.Sample k)} (hc : ∀ c ∈ cs, Proper a k gio c) {S : Session a.backend env} {told : List Told}
    (h : session a k gdoc gio cs = .ok (S, told)) {c : Cmd a.Sample k} (hp : Proper a k gio c) :
    (∃ r, session a k gdoc gio (cs ++ [c]) = .ok r) ↔ Usable gio (followAll gio cs) c := by
  rw [← (session_inv hg cs hc h).1.returns hg hp, session_snoc, h, ok_bind]
  constructor
  · rintro ⟨r, hr⟩
    simp only [bind_eq_ok] at hr
    obtain ⟨q, e, -⟩ := hr
    exact ⟨q, e⟩
  · rintro ⟨r, hr⟩
    dsimp only
    rw [hr]
    exact ⟨_, rfl⟩

theorem add_keeps {B : Backend} {S : Session B env} {v : Nat} {o : Obj} {b : Bool} {st : EstState B env} (hv : S.vars[v]? = some o) :
    (S.add b st).vars[v]? = some o ∧ ∀ (p : Nat) x, S.heap[p]? = some x → (S.add b st).heap[p]? = some x :=
  ⟨snoc_left hv, fun _ _ h => snoc_left h⟩

theorem push_keeps {B : Backend} {S : Session B env} {v : Nat} {o o' : Obj} (hv : S.vars[v]? = some o) :
    (S.push o').vars[v]? = some o ∧ ∀ (p : Nat) x, S.heap[p]? = some x → (S.push o').heap[p]? = some x :=
  ⟨snoc_left hv, fun _ _ h => h⟩

theorem delete_keeps {B : Backend} {S S' : Session B env} {q : Option Nat} (h : S.delete q = .ok S') :
    S'.vars = S.vars ∧ ∀ p : Nat, q ≠ some p → S'.heap[p]? = S.heap[p]? := by
  cases q with
  | none => cases h; exact ⟨rfl, fun _ _ => rfl⟩
  | some q =>
    unfold Session.delete at h
    dsimp only at h
    split at h
    · cases h
      exact ⟨rfl, fun p hp => List.getElem?_set_ne fun e => hp (by rw [e])⟩
    · cases h

/-- **C78**: a statement changes the variables it names as targets and the states these own, and no others: training or loading into one object never shows in
another. -/
theorem C78_separate (hg : FaithfulText gdoc gio) {cs : List (Cmd a.Sample k)} (hc : ∀ c ∈ cs, Proper a k gio c) {S S' : Session a.backend env} {told told' : List Told}
    (h : session a k gdoc gio cs = .ok (S, told)) {c : Cmd a.Sample k} (h' : session a k gdoc gio (cs ++ [c]) = .ok (S', told'))
    {v : Nat} {o : Obj} (hv : S.vars[v]? = some o) (hn : v ∉ c.targets) :
    S'.vars[v]? = some o ∧ ∀ p b, o = .owner b (some p) → S'.heap[p]? = S.heap[p]? := by
  have hI := (session_inv hg cs hc h).1
  rw [session_snoc, h, ok_bind] at h'
  simp only [bind_eq_ok] at h'
  obtain ⟨q, he, e⟩ := h'
  cases e
  have mono : (q.1.vars[v]? = some o ∧ ∀ (p : Nat) x, S.heap[p]? = some x → q.1.heap[p]? = some x) →
      q.1.vars[v]? = some o ∧ ∀ p b, o = .owner b (some p) → q.1.heap[p]? = S.heap[p]? := by
    rintro ⟨h1, h2⟩
    refine ⟨h1, fun p b e => ?_⟩
    subst e
    obtain ⟨_, st, -, h3, -⟩ := hI.alive hv
    rw [h3]
    exact h2 _ _ h3
  have puts : ∀ {w r : Nat} {st : EstState a.backend env} {b' : Bool}, S.vars[w]? = some (.owner b' (some r)) → v ≠ w →
      (S.put r st).vars[v]? = some o ∧ ∀ p b, o = .owner b (some p) → (S.put r st).heap[p]? = S.heap[p]? := by
    intro w r st b' hw hvw
    refine ⟨hv, fun p b e => ?_⟩
    subst e
    exact List.getElem?_set_ne fun e => hvw (by subst e; exact hI.uniq _ _ _ _ _ hv hw)
  cases c with
  | make m io req =>
    unfold Cmd.exec at he
    simp only [bind_eq_ok] at he
    obtain ⟨r, e1, e2⟩ := he
    cases r with
    | ok p => cases e2; exact mono (add_keeps hv)
    | error s => cases e2; exact mono (push_keeps hv)
  | call sc e d =>
    unfold Cmd.exec at he
    simp only [bind_eq_ok] at he
    obtain ⟨r, e1, r', e2, e3⟩ := he
    cases e3
    exact puts (deref_ok e1).1 fun e => hn (by subst e; exact List.mem_singleton.2 rfl)
  | clone e =>
    unfold Cmd.exec at he
    simp only [bind_eq_ok] at he
    obtain ⟨r, e1, e2⟩ := he
    cases e2
    exact mono (add_keeps hv)
  | build e =>
    unfold Cmd.exec at he
    simp only [bind_eq_ok] at he
    obtain ⟨r, e1, e2⟩ := he
    cases e2
    exact mono (add_keeps hv)
  | move w =>
    unfold Cmd.exec at he
    dsimp only at he
    split at he
    · cases he
      refine ⟨snoc_left ?_, fun _ _ _ => rfl⟩
      rw [List.getElem?_set_ne fun e => hn (by subst e; exact List.mem_singleton.2 rfl)]
      exact hv
    · cases he
  | assign d w =>
    have hd : v ≠ d ∧ v ≠ w := by
      constructor <;> (rintro rfl; exact hn (by simp [Cmd.targets]))
    unfold Cmd.exec at he
    dsimp only at he
    split at he
    · rename_i b p e1
      split at he
      · rename_i b' old e2
        split at he
        · simp only [bind_eq_ok] at he
          obtain ⟨S2, e3, e4⟩ := he
          cases e4
          obtain ⟨k1, k2⟩ := delete_keeps e3
          refine ⟨?_, fun r b2 e => k2 r ?_⟩
          · rw [k1]
            dsimp only
            rw [List.getElem?_set_ne fun e => hd.1 e.symm, List.getElem?_set_ne fun e => hd.2 e.symm]
            exact hv
          · rintro rfl
            subst e
            rcases set_some e2 with ⟨-, e⟩ | ⟨-, e2⟩
            · cases e
            · exact hd.1 (hI.uniq _ _ _ _ _ hv e2)
        · cases he
      · cases he
    · cases he
  | save s =>
    unfold Cmd.exec at he
    simp only [bind_eq_ok] at he
    obtain ⟨r, e1, t, e2, e3⟩ := he
    cases e3
    exact mono (push_keeps hv)
  | text t => cases he; exact mono (push_keeps hv)
  | load s t =>
    have hs : v ≠ s := fun e => hn (by subst e; exact List.mem_singleton.2 rfl)
    unfold Cmd.exec at he
    simp only [bind_eq_ok] at he
    obtain ⟨r, e1, he⟩ := he
    split at he
    · split at he
      · cases he; exact puts (deref_ok e1).1 hs
      · cases he; exact puts (deref_ok e1).1 hs
      · cases he
      · cases he
    · cases he
  | destroy w =>
    have hw : v ≠ w := fun e => hn (by subst e; exact List.mem_singleton.2 rfl)
    unfold Cmd.exec at he
    dsimp only at he
    split at he
    · rename_i b p e1
      simp only [bind_eq_ok] at he
      obtain ⟨S2, e3, e4⟩ := he
      cases e4
      obtain ⟨k1, k2⟩ := delete_keeps e3
      refine ⟨?_, fun r b2 e => k2 r ?_⟩
      · rw [k1]
        dsimp only
        rw [List.getElem?_set_ne fun e => hw e.symm]
        exact hv
      · rintro rfl
        subst e
        exact hw (hI.uniq _ _ _ _ _ hv e1)
    · cases he
      refine ⟨?_, fun _ _ _ => rfl⟩
      show (S.vars.set w .gone)[v]? = _
      rw [List.getElem?_set_ne fun e => hw e.symm]
      exact hv
    · cases he

/-! ### A case -/

/-- An estimator is made and trained, its state cloned, the estimator trained further; an estimator built from the clone is trained in the same way under another
schedule, both are asked for their scores, a text that is not JSON is loaded, and the estimators are moved and assigned. -/
def Toy.program : List (Cmd Algo.classic.Sample .classifier) :=
  [.make Toy.machine Toy.io (.classifierArgs (Toy.cArgs true 3)), .call Toy.seq 0 (.fit Toy.X [0, 1, 2, 1] 0 2),
   .clone 0, .call Toy.seq 0 (.partialFit Toy.X [1, 1, 0, 2] 0 1),
   .build 1, .call Toy.rev 2 (.partialFit Toy.X [1, 1, 0, 2] 0 1),
   .call Toy.seq 0 (.decision Toy.X), .call Toy.seq 2 (.decision Toy.X),
   .text [123], .load 1 3,
   .move 0, .assign 2 4]

/-- Everything goes out of scope. -/
def Toy.farewell : List (Cmd Algo.classic.Sample .classifier) := [.destroy 4, .destroy 3, .destroy 2, .destroy 1, .destroy 0]

/-- The scores that were returned. -/
def Toy.scoresOf : Told → Option (List (List Int))
  | .out (.scoreRows (.ok r)) => some r
  | _ => none

/-- What is left of a program: which states are alive, the variables, the scores that were returned. -/
def Toy.left (cs : List (Cmd Algo.classic.Sample .classifier)) : Option (List Bool × List Obj × List (List (List Int))) :=
  match session .classic .classifier Toy.gdoc Toy.gioNulls cs with
  | .ok (S, told) => some (S.heap.map Option.isSome, S.vars, told.filterMap Toy.scoresOf)
  | _ => none

theorem Toy.left_ok {cs : List (Cmd Algo.classic.Sample .classifier)} (h : (Toy.left cs).isSome = true) :
    ∃ S told, session .classic .classifier Toy.gdoc Toy.gioNulls cs = .ok (S, told) := by
  unfold Toy.left at h
  split at h
  · exact ⟨_, _, by assumption⟩
  · cases h

/-- The first three statements, whose clone is saved and loaded again. -/
def Toy.start : List (Cmd Algo.classic.Sample .classifier) := Toy.program.take 3

theorem Toy.cParams_only {p : Params} (h : make Toy.machine Toy.io (.classifierArgs (Toy.cArgs true 3)) = .ok (.ok p)) : p = Toy.cParams := by
  unfold Toy.cParams Toy.made
  rw [h]

theorem Toy.cParams_floats : FloatsOk Toy.env.rnd Toy.cParams := Toy.floats_of (by decide +kernel)
theorem Toy.cParams_floats32 : ∀ key v, Toy.cParams.get? key = some (.real v) → IsFloat v := Toy.floats32_of (by decide +kernel)
theorem Toy.cParams_states : StatesOk .classic Toy.cParams := Toy.statesOk_of (N := 3) (by decide +kernel) (by decide)

theorem Toy.program_proper : ∀ c ∈ Toy.program, Proper .classic .classifier Toy.gioNulls c := by
  have hm : Proper .classic .classifier Toy.gioNulls (.make Toy.machine Toy.io (.classifierArgs (Toy.cArgs true 3))) := by
    refine ⟨by constructor <;> decide +kernel, fun p hp => ?_⟩
    rw [Toy.cParams_only hp]
    exact ⟨Toy.cParams_states, Toy.cParams_floats, Toy.cParams_floats32⟩
  have ht : Proper .classic .classifier Toy.gioNulls (.text [123]) := by
    refine .inl fun old => ⟨_, C73_not_json _ old fun v hv => ?_⟩
    have h : (parse [123]).bind (fun _ => .ok ()) = .exn .jsonError := by decide +kernel
    rw [parse_iff.2 hv] at h
    cases h
  have hw : ∀ sc e (c : Call Algo.classic.Sample .classifier), WellTyped .classic c → Proper .classic .classifier Toy.gioNulls (.call sc e c) := fun _ _ _ h => h
  intro c hc
  unfold Toy.program at hc
  simp only [List.mem_cons, List.not_mem_nil, or_false] at hc
  rcases hc with rfl | rfl | rfl | rfl | rfl | rfl | rfl | rfl | rfl | rfl | rfl | rfl
  · exact hm
  · exact hw _ _ _ (by decide +kernel)
  · trivial
  · exact hw _ _ _ (by decide +kernel)
  · trivial
  · exact hw _ _ _ (by decide +kernel)
  · exact hw _ _ _ (by decide +kernel)
  · exact hw _ _ _ (by decide +kernel)
  · exact ht
  · trivial
  · trivial
  · trivial

/-- The program returns; the clone's descendant gave the same scores as the original; the state that `assign` replaced was deleted. -/
example : FaithfulText Toy.gdoc Toy.gioNulls ∧ (∀ c ∈ Toy.program, Proper .classic .classifier Toy.gioNulls c) ∧
    Toy.left Toy.program = some ([true, true, false], [.owner true none, .owner false (some 1), .owner true (some 0), .text [123], .owner true none],
      [[[0, 1, 1], [0, 0, 0], [1, -1, 0], [-2, 0, 0]], [[0, 1, 1], [0, 0, 0], [1, -1, 0], [-2, 0, 0]]]) :=
  ⟨Toy.gdoc_faithful, Toy.program_proper, by decide +kernel⟩

/-- And when all variables are gone no state is left. -/
example : Toy.left (Toy.program ++ Toy.farewell) = some ([false, false, false], [.gone, .gone, .gone, .gone, .gone],
      [[[0, 1, 1], [0, 0, 0], [1, -1, 0], [-2, 0, 0]], [[0, 1, 1], [0, 0, 0], [1, -1, 0], [-2, 0, 0]]]) := by decide +kernel

/-- Estimators of the same line. -/
example : (match (followAll Toy.gioNulls Toy.program)[2]? with | some (.owner true (some l)) => l.training.length | _ => 0) = 2 := by decide +kernel

/-- Cloning an estimator that was moved from is undefined behaviour. -/
example : (session .classic .classifier Toy.gdoc Toy.gioNulls (Toy.program ++ [.clone 0])).bind (fun _ => .ok ()) = .ub .lifetime := by decide +kernel

/-- The clone can be saved, and the text loaded. -/
example : ∃ r, session .classic .classifier Toy.gdoc Toy.gioNulls (Toy.start ++ [.save 1, .load 1 2]) = .ok r := by
  have hp : ∀ c ∈ Toy.start, Proper .classic .classifier Toy.gioNulls c := fun c hc => Toy.program_proper c (List.mem_of_mem_take hc)
  obtain ⟨S, told, h⟩ := Toy.left_ok (cs := Toy.start) (by decide +kernel)
  obtain ⟨p, hm⟩ : ∃ p, make Toy.machine Toy.io (.classifierArgs (Toy.cArgs true 3)) = .ok (.ok p) := Toy.make_of (by decide +kernel)
  have hm' := hm
  rw [Toy.cParams_only hm] at hm
  have hf : followAll Toy.gioNulls Toy.start = [.owner true (some ⟨.made Toy.cParams, [.fit Toy.X [0, 1, 2, 1] 0 2]⟩), .owner false (some ⟨.made Toy.cParams, [.fit Toy.X [0, 1, 2, 1] 0 2]⟩)] := by
    have e : followAll Toy.gioNulls Toy.start = follow (a := .classic) Toy.gioNulls (follow (a := .classic) Toy.gioNulls (follow (a := .classic) Toy.gioNulls [] (.make Toy.machine Toy.io (.classifierArgs (Toy.cArgs true 3))))
        (.call Toy.seq 0 (.fit Toy.X [0, 1, 2, 1] 0 2))) (.clone 0) := rfl
    rw [e]
    rw [show follow Toy.gioNulls [] (.make Toy.machine Toy.io (.classifierArgs (Toy.cArgs true 3))) = [.owner true (some ⟨.made Toy.cParams, []⟩)] from by
      unfold follow; dsimp only; rw [hm]; rfl]
    rfl
  obtain ⟨⟨S1, told1⟩, h1⟩ := (C78_returns Toy.gdoc_faithful hp h (c := .save 1) trivial).2 (by rw [hf]; exact ⟨_, rfl⟩)
  have hp1 : ∀ c ∈ Toy.start ++ [.save 1], Proper .classic .classifier Toy.gioNulls c := fun c hc => by
    rcases List.mem_append.1 hc with hc | hc
    · exact hp c hc
    · rw [List.mem_singleton.1 hc]; trivial
  have := (C78_returns Toy.gdoc_faithful hp1 h1 (c := .load 1 2) trivial).2 (by
    rw [followAll_snoc, hf]
    refine ⟨⟨_, rfl⟩, _, rfl, ?_⟩
    intro l hl
    cases hl
    have hr := Rep.fresh (a := .classic) (env := Toy.env) (gio := Toy.gioNulls) Toy.cMade Toy.cParams_states Toy.cParams_floats Toy.cParams_floats32
    obtain ⟨st, outs, hs⟩ := Toy.run_of (a := .classic) (sc := Toy.seq) (p := Toy.cParams) (cs := ([.fit Toy.X [0, 1, 2, 1] 0 2] : List (Call Algo.classic.Sample .classifier))) (by decide +kernel)
    have hst : Toy.after .classic Toy.cParams ([.fit Toy.X [0, 1, 2, 1] 0 2] : List (Call Algo.classic.Sample .classifier)) = st := by
      unfold Toy.after; rw [hs]
    obtain ⟨r, o, ho⟩ : ∃ (r : EstState Algo.classic.backend Toy.env) (o : Out), step Algo.classic.backend Toy.env Toy.seq (.fit Toy.X [0, 1, 2, 1] 0 2 : Call Algo.classic.Sample .classifier) (EstState.fresh _ _ Toy.cParams) = .ok (r, o) ∧ r = st := by
      unfold run at hs
      simp only [bind_eq_ok] at hs
      obtain ⟨r, e1, q, e2, e3⟩ := hs
      cases e2; cases e3
      exact ⟨_, _, e1, rfl⟩
    obtain ⟨ho, rfl⟩ := ho
    refine (hr.call (by decide +kernel) ho).1.trained.2 ?_
    rw [← hst]
    show Algo.classic.counters (Toy.after _ _ _) ≠ []
    decide +kernel)
  rw [List.append_assoc] at this
  exact this

/-- A text of another program: that of a trained estimator.  It is loaded into the state of a new one, of which an estimator is made. -/
example : ∃ t, (∀ c ∈ ([.make Toy.machine Toy.io (.classifierArgs (Toy.cArgs true 3)), .clone 0, .text t, .load 1 2, .build 1] : List (Cmd Algo.classic.Sample .classifier)),
      Proper .classic .classifier Toy.gioNulls c) ∧
    (∃ r, session .classic .classifier Toy.gdoc Toy.gioNulls [.make Toy.machine Toy.io (.classifierArgs (Toy.cArgs true 3)), .clone 0, .text t, .load 1 2, .build 1] = .ok r) ∧
    (followAll Toy.gioNulls ([.make Toy.machine Toy.io (.classifierArgs (Toy.cArgs true 3)), .clone 0, .text t, .load 1 2, .build 1] : List (Cmd Algo.classic.Sample .classifier)))[3]? =
      some (.owner true (some ⟨.read t, []⟩)) := by
  obtain ⟨t, -, ht⟩ := C80_saved_text Toy.gdoc_faithful Toy.cc_reached Toy.cc_states Toy.cc_fitted (Toy.floats_of (by decide +kernel)) (Toy.floats32_of (by decide +kernel))
  obtain ⟨st, h1, h2, h3, h4, h5, -⟩ := ht Toy.cc
  have hv : ∀ {key v}, st.params.get? key = some v → Toy.cc.params.get? key = some v := fun {key v} h => by rw [← h5 key (by simp)]; exact h
  obtain ⟨st1, hs, -, -, hs1, -⟩ := ht (EstState.fresh Algo.classic.backend Toy.env [])
  obtain ⟨p, hm⟩ : ∃ p, make Toy.machine Toy.io (.classifierArgs (Toy.cArgs true 3)) = .ok (.ok p) := Toy.make_of (by decide +kernel)
  have hok : ∀ c ∈ ([.make Toy.machine Toy.io (.classifierArgs (Toy.cArgs true 3)), .clone 0, .text t, .load 1 2, .build 1] : List (Cmd Algo.classic.Sample .classifier)),
      Proper .classic .classifier Toy.gioNulls c := by
    intro c hc
    simp only [List.mem_cons, List.not_mem_nil, or_false] at hc
    rcases hc with rfl | rfl | rfl | rfl | rfl
    · exact Toy.program_proper _ (by simp [Toy.program])
    · trivial
    · exact .inr ⟨_, _, h1, C80_fit_together h2 h3 h4, h4, h3, fun key v h => Toy.floats_of (p := Toy.cc.params) (by decide +kernel) key v (hv h),
        fun key v h => Toy.floats32_of (p := Toy.cc.params) (by decide +kernel) key v (hv h)⟩
    · trivial
    · trivial
  have f1 : followAll Toy.gioNulls ([.make Toy.machine Toy.io (.classifierArgs (Toy.cArgs true 3))] : List (Cmd Algo.classic.Sample .classifier)) = [.owner true (some ⟨.made p, []⟩)] := by
    show follow Toy.gioNulls [] (.make Toy.machine Toy.io (.classifierArgs (Toy.cArgs true 3))) = _
    unfold follow; dsimp only; rw [hm]; rfl
  have f2 : followAll Toy.gioNulls ([.make Toy.machine Toy.io (.classifierArgs (Toy.cArgs true 3)), .clone 0] : List (Cmd Algo.classic.Sample .classifier)) =
      [.owner true (some ⟨.made p, []⟩), .owner false (some ⟨.made p, []⟩)] := by
    rw [show ∀ c : Cmd Algo.classic.Sample .classifier, [c, .clone 0] = [c] ++ [.clone 0] from fun _ => rfl, followAll_snoc, f1]; rfl
  have f3 : followAll Toy.gioNulls ([.make Toy.machine Toy.io (.classifierArgs (Toy.cArgs true 3)), .clone 0, .text t] : List (Cmd Algo.classic.Sample .classifier)) =
      [.owner true (some ⟨.made p, []⟩), .owner false (some ⟨.made p, []⟩), .text (some ⟨.read t, []⟩)] := by
    rw [show ∀ c : Cmd Algo.classic.Sample .classifier, [c, .clone 0, .text t] = [c, .clone 0] ++ [.text t] from fun _ => rfl, followAll_snoc, f2]
    unfold follow; dsimp only; rw [show Origin.start .classic .classifier Toy.gioNulls (.read t) = _ from hs]; rfl
  have f4 : followAll Toy.gioNulls ([.make Toy.machine Toy.io (.classifierArgs (Toy.cArgs true 3)), .clone 0, .text t, .load 1 2] : List (Cmd Algo.classic.Sample .classifier)) =
      [.owner true (some ⟨.made p, []⟩), .owner false (some ⟨.read t, []⟩), .text (some ⟨.read t, []⟩)] := by
    rw [show ∀ c : Cmd Algo.classic.Sample .classifier, [c, .clone 0, .text t, .load 1 2] = [c, .clone 0, .text t] ++ [.load 1 2] from fun _ => rfl, followAll_snoc, f3]; rfl
  have f5 : followAll Toy.gioNulls ([.make Toy.machine Toy.io (.classifierArgs (Toy.cArgs true 3)), .clone 0, .text t, .load 1 2, .build 1] : List (Cmd Algo.classic.Sample .classifier)) =
      [.owner true (some ⟨.made p, []⟩), .owner false (some ⟨.read t, []⟩), .text (some ⟨.read t, []⟩), .owner true (some ⟨.read t, []⟩)] := by
    rw [show ∀ c : Cmd Algo.classic.Sample .classifier, [c, .clone 0, .text t, .load 1 2, .build 1] = [c, .clone 0, .text t, .load 1 2] ++ [.build 1] from fun _ => rfl, followAll_snoc, f4]; rfl
  refine ⟨t, hok, ?_, by rw [f5]; rfl⟩
  have go : ∀ (cs : List (Cmd Algo.classic.Sample .classifier)) (c : Cmd Algo.classic.Sample .classifier), (∀ d ∈ cs ++ [c], Proper .classic .classifier Toy.gioNulls d) →
      (∃ r, session .classic .classifier Toy.gdoc Toy.gioNulls cs = .ok r) → Usable Toy.gioNulls (followAll Toy.gioNulls cs) c → ∃ r, session .classic .classifier Toy.gdoc Toy.gioNulls (cs ++ [c]) = .ok r :=
    fun cs c h ⟨⟨S, told⟩, h'⟩ hu => (C78_returns Toy.gdoc_faithful (fun d hd => h d (List.mem_append_left _ hd)) h' (h c (by simp))).2 hu
  have g1 := go [] (.make Toy.machine Toy.io (.classifierArgs (Toy.cArgs true 3))) (fun d hd => hok d (by simp at hd; simp [hd])) ⟨_, rfl⟩ ⟨_, hm⟩
  have g2 := go _ (.clone 0) (fun d hd => hok d (by simp at hd ⊢; rcases hd with h | h <;> simp [h])) g1 (by show Usable _ (followAll Toy.gioNulls [_]) _; rw [f1]; exact ⟨_, rfl⟩)
  have g3 := go _ (.text t) (fun d hd => hok d (by simp at hd ⊢; rcases hd with h | h | h <;> simp [h])) g2 trivial
  have g4 := go _ (.load 1 2) (fun d hd => hok d (by simp at hd ⊢; rcases hd with h | h | h | h <;> simp [h])) g3 (by
    show Usable _ (followAll Toy.gioNulls [_, _, _]) _
    rw [f3]
    refine ⟨⟨_, rfl⟩, _, rfl, fun l hl => ?_⟩
    cases hl
    intro st0 h0 sc st' outs hr
    rw [show Origin.start .classic .classifier Toy.gioNulls (.read t) = _ from hs] at h0
    cases h0
    cases hr
    exact hs1)
  exact go _ (.build 1) (fun d hd => hok d (by simp at hd ⊢; rcases hd with h | h | h | h | h <;> simp [h])) g4 (by
    show Usable _ (followAll Toy.gioNulls [_, _, _, _]) _
    rw [f4]
    exact ⟨_, rfl⟩)

end Tsetlini
