import Verif.Model.StateEq
import Verif.Model.StateText
import Verif.Model.ParamsMake
/-
User programs with any number of estimators: the whole public interface of lib/include/tsetlini.hpp and
lib/include/tsetlini_state_json.hpp for one of the four classes.

An estimator is a `std::unique_ptr` to a state on the heap (`m_state_p`, lib/include/tsetlini.hpp:127,265,432,570), and so is
what `clone_state()` returns (lib/include/estimator_state_fwd.hpp:47-50).  States are otherwise inaccessible: their type is incomplete in the
public headers.

Simplifications: allocation does not fail (C62 is about that); an exception from a method other than `from_json_string` ends the
program; the temporaries of the factories are not modelled (C68 is about them).
-/
namespace Tsetlini

/-- A variable of the program: an estimator (`est`) or a pointer to a state, which own the state at an address or, having been moved from,
nothing; a text; or a variable whose lifetime is over.  lib/include/tsetlini.hpp:127,265,432,570, lib/include/estimator_state_fwd.hpp:47-50 -/
inductive Obj where
  | owner (est : Bool) (p : Option Nat)
  | text (t : Bytes)
  | gone
deriving DecidableEq

/-- A program at some point: the states on the heap, by address, `none` after `delete`; and the variables, in the order of their
declaration.  No counterpart in the code: the memory of a user program. -/
structure Session (B : Backend) (env : Env) where
  heap : List (Option (EstState B env))
  vars : List Obj

/-- A statement.  Those that declare a variable declare the next one. -/
inductive Cmd (S : Type) (k : Kind) where
  /-- `auto e = make_...(...)`, lib/include/tsetlini.hpp:143-180 and 276-322, 448-485, 581-627 -/
  | make (m : Machine) (io : RealIO) (req : Request k)
  /-- a method call `e.fit(...)`, ...; `sc` is the schedule of its parallel loops -/
  | call (sc : Sched) (e : Nat) (c : Call S k)
  /-- `auto s = e.clone_state()` -/
  | clone (e : Nat)
  /-- `ClassifierClassic e(*s)` -/
  | build (s : Nat)
  /-- `auto w = std::move(v)` -/
  | move (v : Nat)
  /-- `d = std::move(v)` -/
  | assign (d v : Nat)
  /-- `auto t = to_json_string(*s)` -/
  | save (s : Nat)
  /-- `auto t = "..."` -/
  | text (t : Bytes)
  /-- `try { from_json_string(*s, t); } catch (...) {}` -/
  | load (s t : Nat)
  /-- the end of the lifetime of `v` -/
  | destroy (v : Nat)

/-- What a statement tells the program.  No counterpart in the code: return values and exceptions. -/
inductive Told where
  | nothing
  | refused (s : Status)
  | out (o : Out)
  | threw (e : Exn)

namespace Session

variable {B : Backend} {env : Env}

/-- `*m_state_p`, `*s`: the address and the state.  Undefined if the variable owns none; lib/src/tsetlini.cpp:1081-1174. -/
def deref (S : Session B env) (est : Bool) (v : Nat) : Res (Nat × EstState B env) :=
  match S.vars[v]? with
  | some (.owner b (some p)) =>
    if b = est then
      match S.heap[p]? with
      | some (some st) => .ok (p, st)
      | _ => .ub .lifetime
    else .ub .lifetime
  | _ => .ub .lifetime

/-- `new ClassifierStateClassic(...)`, owned by a new variable; lib/src/tsetlini.cpp:1055-1079,1169-1174. -/
def add (S : Session B env) (est : Bool) (st : EstState B env) : Session B env :=
  ⟨S.heap ++ [some st], S.vars ++ [.owner est (some S.heap.length)]⟩

/-- A new variable.  No counterpart in the code: a declaration. -/
def push (S : Session B env) (o : Obj) : Session B env := ⟨S.heap, S.vars ++ [o]⟩

/-- A state is changed in place.  No counterpart in the code: an assignment through a pointer. -/
def put (S : Session B env) (p : Nat) (st : EstState B env) : Session B env := ⟨S.heap.set p (some st), S.vars⟩

/-- The deleter, which a `unique_ptr` calls unless it is null; lib/src/estimator_state.cpp:10-13. -/
def delete (S : Session B env) : Option Nat → Res (Session B env)
  | none => .ok S
  | some p =>
    match S.heap[p]? with
    | some (some _) => .ok ⟨S.heap.set p none, S.vars⟩
    | _ => .ub .lifetime

end Session

variable {B : Backend} {env : Env} {k : Kind}

/-- One statement: lib/src/tsetlini.cpp:1055-1174,1251-1347,1372-1465,1541-1612 and lib/src/tsetlini_state_json.cpp:349-461.  Moving is
`std::unique_ptr`'s (the move operations are defaulted, lib/include/tsetlini.hpp:117-118,255-256,422-423,560-561, lib/src/tsetlini.cpp:1082,1219,1477,1624): the
target takes the address over, the source becomes null, and the target's former state is deleted. -/
def Cmd.exec (gdoc : GenDoc env) (gio : GenIO env) (tdoc : TA B → TVal) (tio : TaIO B) (algo : String) (S : Session B env) :
    Cmd B.Sample k → Res (Session B env × Told)
  | .make m io req => (_root_.Tsetlini.make m io req).bind fun r => match r with
    | .ok p => .ok (S.add true (EstState.fresh B env p), .nothing)
    | .error s => .ok (S.push .gone, .refused s)
  | .call sc e c => (S.deref true e).bind fun r => (step B env sc c r.2).bind fun q => .ok (S.put r.1 q.1, .out q.2)
  | .clone e => (S.deref true e).bind fun r => .ok (S.add false r.2.clone, .nothing)
  | .build s => (S.deref false s).bind fun r => .ok (S.add true r.2.clone, .nothing)
  | .move v => match S.vars[v]? with
    | some (.owner b p) => .ok (⟨S.heap, S.vars.set v (.owner b none) ++ [.owner b p]⟩, .nothing)
    | _ => .ub .lifetime
  | .assign d v => match S.vars[v]? with
    | some (.owner b p) =>
      let vars := S.vars.set v (.owner b none)
      match vars[d]? with
      | some (.owner b' old) =>
        if b' = b then (Session.delete ⟨S.heap, vars.set d (.owner b p)⟩ old).bind fun S => .ok (S, .nothing)
        else .ub .lifetime
      | _ => .ub .lifetime
    | _ => .ub .lifetime
  | .save s => (S.deref false s).bind fun r => (toJsonString gdoc tdoc algo k r.2).bind fun t => .ok (S.push (.text t), .nothing)
  | .text t => .ok (S.push (.text t), .nothing)
  | .load s t => (S.deref false s).bind fun r => match S.vars[t]? with
    | some (.text t) =>
      let q := fromJsonStringInto gio tio k r.2 t
      match q.2 with
      | .ok _ => .ok (S.put r.1 q.1, .nothing)
      | .exn e => .ok (S.put r.1 q.1, .threw e)
      | .ub u => .ub u
      | .timeout => .timeout
    | _ => .ub .lifetime
  | .destroy v => match S.vars[v]? with
    | some (.owner _ p) => (Session.delete ⟨S.heap, S.vars.set v .gone⟩ p).bind fun S => .ok (S, .nothing)
    | some (.text _) => .ok (⟨S.heap, S.vars.set v .gone⟩, .nothing)
    | _ => .ub .lifetime

/-- A program.  No counterpart in the code: a user program. -/
def Cmd.run (gdoc : GenDoc env) (gio : GenIO env) (tdoc : TA B → TVal) (tio : TaIO B) (algo : String) :
    List (Cmd B.Sample k) → Session B env → Res (Session B env × List Told)
  | [], S => .ok (S, [])
  | c :: cs, S => (c.exec gdoc gio tdoc tio algo S).bind fun r => (Cmd.run gdoc gio tdoc tio algo cs r.1).bind fun q => .ok (q.1, r.2 :: q.2)

end Tsetlini
