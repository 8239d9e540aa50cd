import Verif.Model.Session
import Verif.Spec.SavedText
import Verif.Spec.JsonGrammar
import Verif.Spec.Overflow
import Verif.Spec.Twin
/- What the property of whole programs is stated with. -/
namespace Tsetlini.Spec

/-- Where a state comes from: an estimator was made with these parameters, or loaded from this text, which the program did not save itself. -/
inductive Origin where
  | made (p : Params)
  | read (t : Bytes)

/-- How a state came about: where it comes from, and the training calls that it was put through. -/
structure Line (S : Type) (k : Kind) where
  origin : Origin
  training : List (Call S k)

/-- After a further call: those that only read leave no trace. -/
def Line.after {S : Type} {k : Kind} (l : Line S k) : Call S k → Line S k
  | .fit X y ml ep => ⟨l.origin, l.training ++ [.fit X y ml ep]⟩
  | .partialFit X y ml ep => ⟨l.origin, l.training ++ [.partialFit X y ml ep]⟩
  | .fitR X y ep => ⟨l.origin, l.training ++ [.fitR X y ep]⟩
  | .partialFitR X y ep => ⟨l.origin, l.training ++ [.partialFitR X y ep]⟩
  | _ => l

/-- What a variable of a program is about. -/
inductive About (S : Type) (k : Kind) where
  /-- an estimator (`est`), or a pointer to a state; `none` after it was moved from -/
  | owner (est : Bool) (l : Option (Line S k))
  /-- a text, saved or from elsewhere, that is loaded as this; `none`: a text that cannot be loaded -/
  | text (l : Option (Line S k))
  | gone

/-- The estimator that training starts with. -/
def Origin.start (a : Algo) (k : Kind) {env : Env} (gio : GenIO env) : Origin → Res (EstState a.backend env)
  | .made p => .ok (EstState.fresh a.backend env p)
  | .read t => loadText a k gio (EstState.fresh a.backend env []) t

/-- What the variables of a program are about after a statement: making an estimator and a text from elsewhere that can be loaded start lines, calls lengthen a line of training, everything else
just hands lines on. -/
def follow {a : Algo} {k : Kind} {env : Env} (gio : GenIO env) (T : List (About a.Sample k)) : Cmd a.Sample k → List (About a.Sample k)
  | .make m io req => T ++ [match make m io req with
    | .ok (.ok p) => .owner true (some ⟨.made p, []⟩)
    | _ => .gone]
  | .call _ e c => match T[e]? with
    | some (.owner b (some l)) => T.set e (.owner b (some (l.after c)))
    | _ => T
  | .clone e => match T[e]? with
    | some (.owner _ l) => T ++ [.owner false l]
    | _ => T
  | .build s => match T[s]? with
    | some (.owner _ l) => T ++ [.owner true l]
    | _ => T
  | .move v => match T[v]? with
    | some (.owner b l) => T.set v (.owner b none) ++ [.owner b l]
    | _ => T
  | .assign d v => match T[v]? with
    | some (.owner b l) => (T.set v (.owner b none)).set d (.owner b l)
    | _ => T
  | .save s => match T[s]? with
    | some (.owner _ l) => T ++ [.text l]
    | _ => T
  | .text t => T ++ [match (Origin.read t).start a k gio with
    | .ok _ => .text (some ⟨.read t, []⟩)
    | _ => .text none]
  | .load s t => match T[t]? with
    | some (.text (some l)) => T.set s (.owner false (some l))
    | _ => T
  | .destroy v => T.set v .gone

/-- What the variables are about after a program. -/
def followAll {a : Algo} {k : Kind} {env : Env} (gio : GenIO env) (cs : List (Cmd a.Sample k)) : List (About a.Sample k) := cs.foldl (follow gio) []

/-- The program. -/
def session (a : Algo) (k : Kind) {env : Env} (gdoc : GenDoc env) (gio : GenIO env) (cs : List (Cmd a.Sample k)) :
    Res (Session a.backend env × List Told) := Cmd.run gdoc gio a.doc a.io a.name cs ⟨[], []⟩

/-- The arguments of a statement are values of the declared types; estimators are made with a `number_of_states` that works and finite
real parameters, which are `float`s; and texts that were not saved by the program are refused and then change nothing (such as texts that are not JSON), or can be loaded, as a trained
estimator of this kind whose parts fit together. -/
def Proper (a : Algo) (k : Kind) {env : Env} (gio : GenIO env) : Cmd a.Sample k → Prop
  | .make m io req => ReqTyped req ∧ ∀ p, make m io req = .ok (.ok p) →
      StatesOk a p ∧ FloatsOk env.rnd p ∧ ∀ key v, p.get? key = some (.real v) → IsFloat v
  | .call _ _ c => WellTyped a c
  | .text t => (∀ old : EstState a.backend env, ∃ e, loadTextLeaves a k gio old t = (old, .exn e)) ∨ ∃ old st : EstState a.backend env, loadText a k gio old t = .ok st ∧ Coherent a k st ∧ Fitted a st ∧
      StatesOk a st.params ∧ FloatsOk env.rnd st.params ∧ ∀ key v, st.params.get? key = some (.real v) → IsFloat v
  | _ => True

/-- An estimator of this origin, put through the training of the line, returns `o` from the call `c`. -/
def Line.Answers {a : Algo} {k : Kind} {env : Env} (gio : GenIO env) (l : Line a.Sample k) (c : Call a.Sample k) (o : Out) : Prop :=
  ∃ st0, l.origin.start a k gio = .ok st0 ∧ ∀ sc : Sched, ∃ st outs, run a.backend env sc (l.training ++ [c]) st0 = .ok (st, outs ++ [o])

/-- The state is that of an estimator of this origin which was put through the training of the line. -/
def Line.Leads {a : Algo} {k : Kind} {env : Env} (gio : GenIO env) (l : Line a.Sample k) (st : EstState a.backend env) : Prop :=
  ∃ st0, l.origin.start a k gio = .ok st0 ∧ ∀ sc : Sched, ∃ st' outs, run a.backend env sc l.training st0 = .ok (st', outs) ∧
    AgreeBut [] st'.params st.params ∧ SameLearned st' st ∧ Indistinguishable a k st' st

/-- An estimator of this origin which was put through the training of the line is fitted. -/
def Line.Trained {a : Algo} {k : Kind} {env : Env} (gio : GenIO env) (l : Line a.Sample k) : Prop :=
  ∀ st0, l.origin.start a k gio = .ok st0 → ∀ (sc : Sched) st outs, run a.backend env sc l.training st0 = .ok (st, outs) → Fitted a st

/-- The statement returns: its operands are alive, of the right kind and not moved from; the factory and the method return, and a text
that is loaded is one that is refused (the exception is caught) or that of a fitted estimator. -/
def Usable {a : Algo} {k : Kind} {env : Env} (gio : GenIO env) (T : List (About a.Sample k)) : Cmd a.Sample k → Prop
  | .make m io req => ∃ r, make m io req = .ok r
  | .call _ e c => ∃ l o, T[e]? = some (.owner true (some l)) ∧ l.Answers gio c o
  | .clone e => ∃ l, T[e]? = some (.owner true (some l))
  | .build s => ∃ l, T[s]? = some (.owner false (some l))
  | .move v => ∃ b l, T[v]? = some (.owner b l)
  | .assign d v => ∃ b l l', T[d]? = some (.owner b l) ∧ T[v]? = some (.owner b l')
  | .save s => ∃ l, T[s]? = some (.owner false (some l))
  | .text _ => True
  | .load s t => (∃ l, T[s]? = some (.owner false (some l))) ∧ ∃ ol, T[t]? = some (.text ol) ∧ ∀ l, ol = some l → l.Trained gio
  | .destroy v => (∃ b l, T[v]? = some (.owner b l)) ∨ ∃ l, T[v]? = some (.text l)

/-- The variables a statement may change; all others it only reads, or declares. -/
def _root_.Tsetlini.Cmd.targets {S : Type} {k : Kind} : Cmd S k → List Nat
  | .call _ e _ => [e]
  | .move v => [v]
  | .assign d v => [d, v]
  | .load s _ => [s]
  | .destroy v => [v]
  | _ => []

/-- The variable owns the state at the address. -/
def OwnsAt {B : Backend} {env : Env} (S : Session B env) (v p : Nat) : Prop := ∃ b, S.vars[v]? = some (.owner b (some p))

end Tsetlini.Spec
