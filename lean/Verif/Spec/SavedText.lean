import Verif.Model.StateText
import Verif.Spec.Saved
import Verif.Spec.JsonText
/- What the properties of saved texts are stated with. -/
namespace Tsetlini.Spec

/-- How the family writes its automata. -/
def Algo.doc : (a : Algo) → TA a.backend → TVal
  | .classic => classicDoc
  | .bitwise => bitwiseDoc

/-- `to_json_string(state)`: the text. -/
def saveText (a : Algo) (k : Kind) {env : Env} (gdoc : GenDoc env) (st : EstState a.backend env) : Res Bytes :=
  toJsonString gdoc a.doc a.name k st

/-- `from_json_string(state, text)`; `old` is what `state` is before. -/
def loadText (a : Algo) (k : Kind) {env : Env} (gio : GenIO env) (old : EstState a.backend env) (text : Bytes) :
    Res (EstState a.backend env) := fromJsonString gio a.io k old text

/-- `from_json_string(state, text)`, whatever comes of it: what `state` is afterwards, and whether the call returned. -/
def loadTextLeaves (a : Algo) (k : Kind) {env : Env} (gio : GenIO env) (old : EstState a.backend env) (text : Bytes) :
    EstState a.backend env × Res Unit := fromJsonStringInto gio a.io k old text

/-- Generators are written as well-formed documents, and what is read of them are the same generators (shown of the library's own ones in
`C73_generators`). -/
structure FaithfulText {env : Env} (gdoc : GenDoc env) (gio : GenIO env) : Prop where
  iDoc : ∀ g, Wide (gdoc.iDoc g) ∧ Encoded (gdoc.iDoc g)
  igen : ∀ g, gio.iOf (reread (gdoc.iDoc g)).value = .ok g
  fDoc : ∀ g, Wide (gdoc.fDoc g) ∧ Encoded (gdoc.fDoc g)
  fgen : ∀ g, gio.fOf (reread (gdoc.fDoc g)).value = .ok g

end Tsetlini.Spec
