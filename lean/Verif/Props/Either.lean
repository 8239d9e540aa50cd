import Verif.Spec.Either
/-
C68: results (`Either`, `Maybe`) are values: programs that construct, copy, move, map and destroy them see exactly the values they should,
construct and destroy every value exactly once, and call their functions exactly when they should.
-/
namespace Tsetlini
open Spec Life

variable {L R L' R' A : Type}

/-- A step that constructs one value. -/
private theorem living_append (vs : List (Option (Except L R))) (e : Except L R) :
    ((vs ++ [some e]).filter Option.isSome).length = (vs.filter Option.isSome).length + 1 := by
  simp [List.filter_append]

private theorem living_set (vs : List (Option (Except L R))) (y : Nat) (v e : Except L R) (h : vs[y]? = some (some v)) :
    ((vs.set y (some e)).filter Option.isSome).length = (vs.filter Option.isSome).length := by
  induction vs generalizing y with
  | nil => simp at h
  | cons a vs ih =>
    cases y with
    | zero => simp at h; simp [h]
    | succ y =>
      simp at h
      have := ih y h
      cases a <;> simp [this]

private theorem living_clear (vs : List (Option (Except L R))) (y : Nat) (v : Except L R) (h : vs[y]? = some (some v)) :
    ((vs.set y none).filter Option.isSome).length + 1 = (vs.filter Option.isSome).length := by
  induction vs generalizing y with
  | nil => simp at h
  | cons a vs ih =>
    cases y with
    | zero => simp at h; simp [h]
    | succ y =>
      simp at h
      have := ih y h
      cases a <;> simp <;> omega

private def objs (h : Holding L R) : EVars L R := h.vars.map (Option.map object)

private theorem get_objs (h : Holding L R) (y : Nat) (v : Except L R) (hv : h.vars[y]? = some (some v)) :
    (objs h).get y = Life.pure (object v) := by
  unfold EVars.get objs
  rw [List.getElem?_map, hv]; rfl

private theorem get_none (h : Holding L R) (y : Nat) (k : Except L R → Holding L R) (hv : h.use y k = none) :
    (objs h).get y = Life.undef := by
  unfold EVars.get objs
  unfold Holding.use at hv
  rw [List.getElem?_map]
  match hh : h.vars[y]? with
  | none => rfl
  | some none => rfl
  | some (some v) => rw [hh] at hv; exact absurd hv (by simp)

private theorem use_some (h : Holding L R) (y : Nat) (k : Except L R → Holding L R) (h' : Holding L R) (hv : h.use y k = some h') :
    ∃ v, h.vars[y]? = some (some v) ∧ h' = k v := by
  unfold Holding.use at hv
  match hh : h.vars[y]? with
  | none => rw [hh] at hv; exact absurd hv (by simp)
  | some none => rw [hh] at hv; exact absurd hv (by simp)
  | some (some v) => rw [hh] at hv; exact ⟨v, rfl, (Option.some.inj hv).symm⟩

private theorem objs_add (h : Holding L R) (e : Except L R) : objs h ++ [some (object e)] = objs (h.add e) := by
  simp [objs, Holding.add]

private theorem objs_derive (mL : L → L) (mR : R → R) (h : Holding L R) (y : Nat) (v e : Except L R) (m c : Bool) :
    objs (h.derive mL mR y v e m c) =
      (if m then (objs h).set y (some (object (leavings mL mR v))) else objs h) ++ [some (object e)] := by
  cases m <;> simp [objs, Holding.derive, List.map_set]

private theorem living_derive (mL : L → L) (mR : R → R) (h : Holding L R) (y : Nat) (v e : Except L R) (m c : Bool)
    (hv : h.vars[y]? = some (some v)) : (h.derive mL mR y v e m c).living = h.living + 1 := by
  unfold Holding.living Holding.derive
  cases m
  · exact living_append _ _
  · refine (living_append _ _).trans ?_
    show ((h.vars.set y (some (leavings mL mR v))).filter Option.isSome).length + 1 = _
    rw [living_set _ _ v _ hv]

private theorem drop_ok (a : A) (n k : Nat) : drop a ⟨n + 1, k⟩ = .ok ((), ⟨n, k⟩) := by
  unfold drop
  exact if_neg (Nat.succ_ne_zero n)

/-- Runs the code on a result. -/
macro "life" : tactic =>
  `(tactic| simp [object, leavings, orElse, isError, Except.mapError, Except.map, Except.bind, EitherObj.leftOf, EitherObj.rightOf,
      EitherObj.leftOfMove, EitherObj.rightOfMove, EitherObj.copy, EitherObj.move, EitherObj.destroy, EitherObj.leftValue, EitherObj.rightValue,
      EitherObj.leftMap, EitherObj.rightMap, EitherObj.leftMapMove, EitherObj.rightMapMove, EitherObj.leftFlatMap, EitherObj.rightFlatMap,
      EitherObj.leftFlatMapMove, EitherObj.rightFlatMapMove, EitherObj.isRight, EitherObj.left, EitherObj.right, EitherObj.join, EitherObj.eq,
      MaybeObj.of, MaybeObj.empty, MaybeObj.destroy, MaybeObj.eq, MaybeObj.unsafeGet, MaybeObj.copy, MaybeObj.get, MaybeObj.map, MaybeObj.size, MaybeObj.isEmpty, maybeObject, held,
      Life.bind, Life.pure, copyOf, moveOf, call, drop_ok, Res.bind])

private theorem ofExcept_eq (e : Except L R) : EitherObj.ofExcept e = object e := by cases e <;> rfl

/-- **C68 (the operations).** Constructing, copying, moving, mapping and destroying a result does to the object what it does to the value,
also when the type changes: a function given to `leftMap` or `leftFlatMap` is called, once, for a left value only, one given to `rightMap` or
`rightFlatMap` for a right value only, and the other side is passed on unchanged; a copy leaves the original as it is, a move leaves it on its
side; and exactly one value is constructed, or destroyed, on balance — on a program that has any number `n` of values alive and has made any
number `k` of calls. -/
theorem C68_operations (mL : L → L) (mR : R → R) (mL' : L' → L') (mR' : R' → R') (v : Except L R) (n k : Nat) :
    (∀ l, EitherObj.leftOf (R := R) mL l ⟨n, k⟩ = .ok (object (.error l), ⟨n + 1, k⟩)) ∧
    (∀ r, EitherObj.rightOf (L := L) mR r ⟨n, k⟩ = .ok (object (.ok r), ⟨n + 1, k⟩)) ∧
    (∀ l, EitherObj.leftOfMove (R := R) mL l ⟨n, k⟩ = .ok ((object (.error l), mL l), ⟨n + 1, k⟩)) ∧
    (∀ r, EitherObj.rightOfMove (L := L) mR r ⟨n, k⟩ = .ok ((object (.ok r), mR r), ⟨n + 1, k⟩)) ∧
    (object v).copy ⟨n, k⟩ = .ok (object v, ⟨n + 1, k⟩) ∧
    (object v).move mL mR ⟨n, k⟩ = .ok ((object v, object (leavings mL mR v)), ⟨n + 1, k⟩) ∧
    (object v).destroy ⟨n + 1, k⟩ = .ok ((), ⟨n, k⟩) ∧
    (∀ f : L → L', (object v).leftMap mR mL' f ⟨n, k⟩ = .ok (object (v.mapError f), ⟨n + 1, if isError v then k + 1 else k⟩)) ∧
    (∀ f : R → R', (object v).rightMap mL mR' f ⟨n, k⟩ = .ok (object (v.map f), ⟨n + 1, if isError v then k else k + 1⟩)) ∧
    (∀ f : L → Except L' R, (object v).leftFlatMap mR f ⟨n, k⟩ = .ok (object (orElse v f), ⟨n + 1, if isError v then k + 1 else k⟩)) ∧
    (∀ f : R → Except L R', (object v).rightFlatMap mL f ⟨n, k⟩ = .ok (object (v.bind f), ⟨n + 1, if isError v then k else k + 1⟩)) ∧
    (∀ f : L → L', (object v).leftMapMove mL mR mL' f ⟨n, k⟩ =
      .ok ((object (v.mapError f), object (leavings mL mR v)), ⟨n + 1, if isError v then k + 1 else k⟩)) ∧
    (∀ f : R → R', (object v).rightMapMove mL mR mR' f ⟨n, k⟩ =
      .ok ((object (v.map f), object (leavings mL mR v)), ⟨n + 1, if isError v then k else k + 1⟩)) ∧
    (∀ f : L → Except L' R, (object v).leftFlatMapMove mL mR f ⟨n, k⟩ =
      .ok ((object (orElse v f), object (leavings mL mR v)), ⟨n + 1, if isError v then k + 1 else k⟩)) ∧
    (∀ f : R → Except L R', (object v).rightFlatMapMove mL mR f ⟨n, k⟩ =
      .ok ((object (v.bind f), object (leavings mL mR v)), ⟨n + 1, if isError v then k else k + 1⟩)) := by
  refine ⟨?_, ?_, ?_, ?_, ?_, ?_, ?_, ?_, ?_, ?_, ?_, ?_, ?_, ?_, ?_⟩ <;> (try intro f) <;> (try cases v) <;> life <;>
    exact ofExcept_eq _

/-- **C68 (the queries).** `left()`, `right()`, the conversion to `bool`, `join` and `==` on results answer what they should of the values, do not
change them, and give back all the objects they construct but the answer itself; the operations of `Maybe` likewise, but for `unsafeGet()` of an empty one, which reads a
value that does not exist (in a build without assertions). -/
theorem C68_queries [DecidableEq L] [DecidableEq R] (v w : Except L R) (p q : Option L) (n k : Nat) :
    (object v).isRight = !isError v ∧
    (object v).left ⟨n, k⟩ = .ok (maybeObject (match v with | .error l => some l | .ok _ => none), ⟨if isError v then n + 1 else n, k⟩) ∧
    (object v).right ⟨n, k⟩ = .ok (maybeObject (match v with | .error _ => none | .ok r => some r), ⟨if isError v then n else n + 1, k⟩) ∧
    (∀ (f : L → A) (g : R → A), (object v).join f g ⟨n, k⟩ = .ok ((match v with | .error l => f l | .ok r => g r), ⟨n + 1, k + 1⟩)) ∧
    (∃ same, (object v).eq (object w) ⟨n, k⟩ = .ok (same, ⟨n, k⟩) ∧ (same = true ↔ v = w)) ∧
    (maybeObject p).eq (maybeObject q) ⟨n, k⟩ = .ok (decide (p = q), ⟨n, k⟩) ∧
    (maybeObject p).destroy ⟨n + held p, k⟩ = .ok ((), ⟨n, k⟩) ∧
    (∀ l, p = some l → (maybeObject p).unsafeGet ⟨n, k⟩ = .ok (l, ⟨n + 1, k⟩)) ∧
    (p = none → (maybeObject p).unsafeGet ⟨n, k⟩ = .ub .lifetime) ∧
    (∀ d, (maybeObject p).get d ⟨n, k⟩ = .ok (p.getD d, ⟨n + 1, k⟩)) ∧
    (maybeObject p).copy ⟨n, k⟩ = .ok (maybeObject p, ⟨n + held p, k⟩) ∧
    ((maybeObject p).isEmpty = p.isNone ∧ (maybeObject p).size = p.toList.length) ∧
    (∀ (mA : A → A) (f : L → A), (maybeObject p).map mA f ⟨n, k⟩ = .ok (maybeObject (p.map f), ⟨n + held p, k + held p⟩)) := by
  refine ⟨?_, ?_, ?_, ?_, ?_, ?_, ?_, ?_, ?_, ?_, ?_, ?_, ?_⟩
  · cases v <;> life
  · cases v <;> life
  · cases v <;> life
  · intro f g; cases v <;> life
  · cases v <;> cases w <;> life
  · cases p <;> cases q <;> life
  · cases p <;> life
  · rintro l rfl; life
  · rintro rfl; life; rfl
  · intro d; cases p <;> life
  · cases p <;> life
  · cases p <;> life
  · intro mA f; cases p <;> life

private theorem bind_ok {x : Life A} {f : A → Life B} {c c' : Counts} {a : A} (h : x c = .ok (a, c')) : (x.bind f) c = f a c' := by
  unfold Life.bind; rw [h]; rfl

/-- One statement, when the variable it uses holds a result. -/
private theorem exec_ok (mL : L → L) (mR : R → R) (c : ECmd L R) (h h' : Holding L R) (he : effect mL mR h c = some h') :
    c.exec mL mR (objs h) ⟨h.living, h.calls⟩ = .ok (objs h', ⟨h'.living, h'.calls⟩) := by
  have add : ∀ e : Except L R, (h.add e).living = h.living + 1 := fun e => living_append _ _
  have got : ∀ {B : Type} (y : Nat) (v : Except L R) (f : EitherObj L R → Life B) (c : Counts), h.vars[y]? = some (some v) →
      (((objs h).get y).bind f) c = f (object v) c := by
    intro B y v f c hv
    rw [get_objs h y v hv]; rfl
  have fin : ∀ (y : Nat) (v e : Except L R) (m cl : Bool) (k : Nat), h.vars[y]? = some (some v) → k = (if cl then h.calls + 1 else h.calls) →
      (.ok ((if m then (objs h).set y (some (object (leavings mL mR v))) else objs h) ++ [some (object e)], ⟨h.living + 1, k⟩)
        : Res (EVars L R × Counts)) =
      .ok (objs (h.derive mL mR y v e m cl), ⟨(h.derive mL mR y v e m cl).living, (h.derive mL mR y v e m cl).calls⟩) := by
    rintro y v e m cl k hv rfl
    rw [objs_derive, living_derive mL mR h y v e m cl hv]; rfl
  cases c with
  | leftOf l =>
    cases Option.some.inj he
    rw [ECmd.exec.eq_def]; dsimp only; rw [bind_ok ((C68_operations mL mR mL mR (.error (ε := L) l) h.living h.calls).1 l)]
    rw [← objs_add, add]; rfl
  | rightOf r =>
    cases Option.some.inj he
    rw [ECmd.exec.eq_def]; dsimp only; rw [bind_ok ((C68_operations mL mR mL mR (.ok (α := R) r) h.living h.calls).2.1 r)]
    rw [← objs_add, add]; rfl
  | copy y =>
    obtain ⟨v, hv, rfl⟩ := use_some h y _ h' he
    obtain ⟨-, -, -, -, o, -⟩ := C68_operations mL mR mL mR v h.living h.calls
    rw [ECmd.exec.eq_def]; dsimp only; rw [got y v _ _ hv, bind_ok o]
    exact fin y v v false false _ hv rfl
  | move y =>
    obtain ⟨v, hv, rfl⟩ := use_some h y _ h' he
    obtain ⟨-, -, -, -, -, o, -⟩ := C68_operations mL mR mL mR v h.living h.calls
    rw [ECmd.exec.eq_def]; dsimp only; rw [got y v _ _ hv, bind_ok o]
    exact fin y v v true false _ hv rfl
  | leftMap m f y =>
    obtain ⟨v, hv, rfl⟩ := use_some h y _ h' he
    obtain ⟨-, -, -, -, -, -, -, o, -, -, -, o', -⟩ := C68_operations mL mR mL mR v h.living h.calls
    cases m
    · rw [ECmd.exec.eq_def]; dsimp only; rw [got y v _ _ hv, bind_ok (o f)]
      exact fin y v _ false (isError v) _ hv (by cases v <;> rfl)
    · rw [ECmd.exec.eq_def]; dsimp only; rw [got y v _ _ hv, bind_ok (o' f)]
      exact fin y v _ true (isError v) _ hv (by cases v <;> rfl)
  | rightMap m f y =>
    obtain ⟨v, hv, rfl⟩ := use_some h y _ h' he
    obtain ⟨-, -, -, -, -, -, -, -, o, -, -, -, o', -⟩ := C68_operations mL mR mL mR v h.living h.calls
    cases m
    · rw [ECmd.exec.eq_def]; dsimp only; rw [got y v _ _ hv, bind_ok (o f)]
      exact fin y v _ false (!isError v) _ hv (by cases v <;> rfl)
    · rw [ECmd.exec.eq_def]; dsimp only; rw [got y v _ _ hv, bind_ok (o' f)]
      exact fin y v _ true (!isError v) _ hv (by cases v <;> rfl)
  | leftFlatMap m f y =>
    obtain ⟨v, hv, rfl⟩ := use_some h y _ h' he
    obtain ⟨-, -, -, -, -, -, -, -, -, o, -, -, -, o', -⟩ := C68_operations mL mR mL mR v h.living h.calls
    cases m
    · rw [ECmd.exec.eq_def]; dsimp only; rw [got y v _ _ hv, bind_ok (o f)]
      exact fin y v _ false (isError v) _ hv (by cases v <;> rfl)
    · rw [ECmd.exec.eq_def]; dsimp only; rw [got y v _ _ hv, bind_ok (o' f)]
      exact fin y v _ true (isError v) _ hv (by cases v <;> rfl)
  | rightFlatMap m f y =>
    obtain ⟨v, hv, rfl⟩ := use_some h y _ h' he
    obtain ⟨-, -, -, -, -, -, -, -, -, -, o, -, -, -, o'⟩ := C68_operations mL mR mL mR v h.living h.calls
    cases m
    · rw [ECmd.exec.eq_def]; dsimp only; rw [got y v _ _ hv, bind_ok (o f)]
      exact fin y v _ false (!isError v) _ hv (by cases v <;> rfl)
    · rw [ECmd.exec.eq_def]; dsimp only; rw [got y v _ _ hv, bind_ok (o' f)]
      exact fin y v _ true (!isError v) _ hv (by cases v <;> rfl)
  | destroy y =>
    obtain ⟨v, hv, rfl⟩ := use_some h y _ h' he
    have hl := living_clear h.vars y v hv
    obtain ⟨-, -, -, -, -, -, o, -⟩ := C68_operations mL mR mL mR v ((h.vars.set y none).filter Option.isSome).length h.calls
    rw [show h.living = ((h.vars.set y none).filter Option.isSome).length + 1 from hl.symm]
    rw [ECmd.exec.eq_def]; dsimp only; rw [got y v _ _ hv, bind_ok o]
    show Res.ok _ = Res.ok _
    simp [objs, List.map_set, Holding.living]

/-- One statement, when the variable it uses does not hold a result. -/
private theorem exec_undef (mL : L → L) (mR : R → R) (c : ECmd L R) (h : Holding L R) (k : Counts) (he : effect mL mR h c = none) :
    c.exec mL mR (objs h) k = .ub .lifetime := by
  have got : ∀ {B : Type} (y : Nat) (g : Except L R → Holding L R) (f : EitherObj L R → Life B) , h.use y g = none →
      (((objs h).get y).bind f) k = .ub .lifetime := by
    intro B y g f hv
    rw [get_none h y g hv]; rfl
  rw [ECmd.exec.eq_def]
  cases c with
  | leftOf l => exact absurd he (by simp [effect])
  | rightOf r => exact absurd he (by simp [effect])
  | copy y => exact got y _ _ he
  | move y => exact got y _ _ he
  | leftMap m f y => cases m <;> exact got y _ _ he
  | rightMap m f y => cases m <;> exact got y _ _ he
  | leftFlatMap m f y => cases m <;> exact got y _ _ he
  | rightFlatMap m f y => cases m <;> exact got y _ _ he
  | destroy y => exact got y _ _ he

/-- **C68 (programs).** A program that constructs, copies, moves, maps and destroys results in any order, using only results it holds, runs
without undefined behaviour and ends with the objects that represent the values its statements compute: the values alive are exactly the ones
it holds (nothing leaked, nothing destroyed twice), and its functions have been called exactly as often as they should.
A program that uses a result after destroying it, or one it never constructed, has undefined behaviour. -/
theorem C68_programs (mL : L → L) (mR : R → R) (cs : List (ECmd L R)) (h : Holding L R) :
    ECmd.run mL mR cs (h.vars.map (Option.map object)) ⟨h.living, h.calls⟩ =
      match effects mL mR cs h with
      | some h' => .ok (h'.vars.map (Option.map object), ⟨h'.living, h'.calls⟩)
      | none => .ub .lifetime := by
  induction cs generalizing h with
  | nil => rfl
  | cons c cs ih =>
    unfold ECmd.run effects
    match he : effect mL mR h c with
    | none => 
      show ((c.exec mL mR (objs h)).bind _) _ = _
      unfold Life.bind
      rw [exec_undef mL mR c h _ he]; rfl
    | some h' => exact (bind_ok (exec_ok mL mR c h h' he)).trans (ih h')

/-- **C68 (chains).** A chain of `rightFlatMap`s — the way parameters are checked — gives what the chain of functions gives on values: the
first error, or the last value; no function is called after the first that fails; and all temporaries are gone at the end. -/
theorem C68_chains (mL : L → L) (mR : R → R) (fs : List (R → Except L R)) (v : Except L R) (n k : Nat) :
    EitherObj.chain mL mR fs (object v) ⟨n + 1, k⟩ = .ok (object (fs.foldl Except.bind v), ⟨n + 1, k + asked fs v⟩) := by
  induction fs generalizing v n k with
  | nil => cases v <;> rfl
  | cons f fs ih =>
    obtain ⟨-, -, -, -, -, -, -, -, -, -, -, -, -, -, o⟩ := C68_operations mL mR mL mR v (n + 1) k
    obtain ⟨-, -, -, -, -, -, o', -⟩ := C68_operations mL mR mL mR (leavings mL mR v) (n + 1) (k + asked (f :: fs) v)
    have e : (if isError v then k else k + 1) + asked fs (v.bind f) = k + asked (f :: fs) v := by
      cases v with
      | error l => cases fs <;> rfl
      | ok r => show k + 1 + asked fs (f r) = k + (asked fs (f r) + 1); omega
    unfold EitherObj.chain
    rw [bind_ok (o f)]
    dsimp only
    rw [bind_ok (ih _ (n + 1) _), e, bind_ok o']
    rfl

namespace Toy

/-- A program that holds a right value and an error, copies, maps, moves and destroys them. -/
def handling : List (ECmd String Nat) :=
  [.rightOf 3, .leftOf "bad", .copy 0, .rightMap false (· + 1) 2, .rightMap false (· + 1) 1, .move 1, .leftMap true (· ++ "!") 5,
   .rightFlatMap true (fun n => if n < 5 then .error "small" else .ok n) 3, .destroy 0, .destroy 7, .destroy 4]

end Toy

/-- It ends with five values and three calls made. -/
example : (effects (fun _ => "") id Toy.handling ⟨[], 0⟩).map (fun h => (h.living, h.calls)) = some (5, 3) := by decide +kernel

/-- Using a result that has been destroyed is caught. -/
example : (effects (fun _ => "") id (Toy.handling ++ [.copy 0]) ⟨[], 0⟩).isNone = true := by decide +kernel

end Tsetlini
