import Verif.Model.Abort
import Verif.Model.JsonParse
/-
The texts of saved states: the documents that lib/src/tsetlini_state_json.cpp builds, written by `dump` and read by `parse`.
Strings are Lean strings outside the JSON library and their UTF-8 encodings inside (all strings the library stores are ASCII).
-/
namespace Tsetlini

/-- The bytes of a string. No counterpart in the code: `std::string`. -/
def bytesOf (s : String) : Bytes := s.toList.flatMap fun c => codepointBytes c.toNat

/-- The characters of UTF-8 bytes (of which the value read by `parse` consists). No counterpart in the code: `std::string`. -/
def charsOf : Bytes → List Char
  | [] => []
  | a :: s =>
    if a < 0x80 then Char.ofNat a :: charsOf s
    else match s with
    | [] => []
    | b :: s =>
      if a < 0xE0 then Char.ofNat ((a - 0xC0) * 64 + (b - 0x80)) :: charsOf s
      else match s with
      | [] => []
      | c :: s =>
        if a < 0xF0 then Char.ofNat ((a - 0xE0) * 4096 + (b - 0x80) * 64 + (c - 0x80)) :: charsOf s
        else match s with
        | [] => []
        | d :: s => Char.ofNat ((a - 0xF0) * 262144 + (b - 0x80) * 4096 + (c - 0x80) * 64 + (d - 0x80)) :: charsOf s

/-- The string of UTF-8 bytes. No counterpart in the code: `std::string`. -/
def stringOf (s : Bytes) : String := String.ofList (charsOf s)

mutual

/-- The same value with Lean strings; `parse` returns no infinities and NaN. No counterpart in the code: two views of `nlohmann::json`. -/
def TVal.value : TVal → JVal
  | .null => .null
  | .bool b => .bool b
  | .unsigned n => .unsigned n
  | .integer i => .integer i
  | .float (.fin q) => .float q
  | .float _ => .null
  | .str s => .str (stringOf s)
  | .arr l => .arr (valueAll l)
  | .obj l => .obj (valueMembers l)

/-- Each element. No counterpart in the code. -/
def valueAll : List TVal → List JVal
  | [] => []
  | v :: l => v.value :: valueAll l

/-- Each member. No counterpart in the code. -/
def valueMembers : List (Bytes × TVal) → List (String × JVal)
  | [] => []
  | m :: l => valueMember m :: valueMembers l

/-- A member. No counterpart in the code. -/
def valueMember : Bytes × TVal → String × JVal
  | (k, v) => (stringOf k, v.value)

end

/-- An object to which members were assigned one after the other, lib/src/tsetlini_state_json.cpp:25,48,138-141,170-172 and the like. -/
def objOf (l : List (String × TVal)) : TVal := .obj (l.foldl (fun l e => setMember (bytesOf e.1) e.2 l) [])

/-! ### Generators -/

/-- `to_json(json &, IRNG const &)` and `to_json(json &, FRNG const &)`, lib/src/tsetlini_state_json.cpp:20-26,43-49. -/
def Mt.doc {V : Type} (f : V → TVal) (m : Mt V) : TVal :=
  objOf [("index", .unsigned m.index), ("RES", .arr (m.res.map f)), ("MT", .arr (m.mt.map fun w => .unsigned w.toNat))]

/-- The documents of the generators of an environment; `realGenDoc` (Lemmas/StateText.lean) is the library's, built from `Mt.doc`.
lib/src/tsetlini_state_json.cpp:20-26,43-49 -/
structure GenDoc (env : Env) where
  iDoc : env.G → TVal
  fDoc : env.F → TVal

/-! ### Automata -/

/-- `to_json` of the counter matrix, lib/src/tsetlini_state_json.cpp:66-95. -/
def Matrix.doc (m : Matrix) : TVal :=
  objOf [("width", .unsigned m.ctype.bytes), ("data", .arr (m.rows.map fun r => .arr (r.map .integer)))]

/-- `to_json` of the polarity matrix, lib/src/tsetlini_state_json.cpp:133-143; `cols` and `pol` as in `polToJson`. -/
def polDoc (cols : Nat) (pol : List (List Block)) : TVal :=
  objOf [("rows", .unsigned pol.length), ("cols", .unsigned cols), ("data", .arr (pol.flatten.map fun b => .unsigned b.toNat))]

/-- Weights: `json(std::vector<unsigned>)`. lib/src/tsetlini_state_json.cpp:171,189 -/
def weightsDoc (ws : List Nat) : TVal := .arr (ws.map .unsigned)

/-- `to_json` of `TAState::value_type`, lib/src/tsetlini_state_json.cpp:166-174. -/
def classicDoc (ta : TA classic) : TVal := objOf [("matrix", Matrix.doc ta.mat), ("weights", weightsDoc ta.weights)]

/-- `to_json` of `TAStateWithPolarity::value_type`, lib/src/tsetlini_state_json.cpp:184-193. -/
def bitwiseDoc (ta : TA bitwise) : TVal :=
  let m : PMatrix := ta.mat
  objOf [("matrix", m.m.doc), ("weights", weightsDoc ta.weights), ("polarity", polDoc m.m.cols m.pol)]

/-! ### Parameters -/

/-- `adl_serializer<param_value_t>::to_json`, lib/src/tsetlini_state_json.cpp:214-245. -/
def PVal.doc : PVal → TVal
  | .int v => .integer v
  | .seed v => .unsigned v.toNat
  | .real x => .float x
  | .bool b => .bool b
  | .str s => .str (bytesOf s)
  | .none => .null

/-- `json(params_t)`: a map of the same members (of equal keys the first counts in `Params`). lib/src/tsetlini_state_json.cpp:293 -/
def Params.doc (p : Params) : TVal := .obj (p.foldr (fun e l => setMember (bytesOf e.1) e.2.doc l) [])

/-! ### States -/

/-- The document of `to_json_string`, lib/src/tsetlini_state_json.cpp:283-294,328-339,373-384,418-429. -/
def stateDoc {B : Backend} {env : Env} (gdoc : GenDoc env) (tdoc : TA B → TVal) (algo : String) (k : Kind) (st : EstState B env) : TVal :=
  objOf [("estimator", .str (bytesOf (match k with | .classifier => "classifier" | .regressor => "regressor"))), ("algo", .str (bytesOf algo)),
         ("ta_state", tdoc st.ta), ("igen", gdoc.iDoc st.igen), ("fgen", gdoc.fDoc st.fgen), ("params", st.params.doc)]

/-- `to_json_string`, lib/src/tsetlini_state_json.cpp:283-296,328-341,373-386,418-431. -/
def toJsonString {B : Backend} {env : Env} (gdoc : GenDoc env) (tdoc : TA B → TVal) (algo : String) (k : Kind) (st : EstState B env) : Res Bytes :=
  dump (stateDoc gdoc tdoc algo k st)

/-- `from_json_string`, lib/src/tsetlini_state_json.cpp:299-325,344-370,389-415,434-460, applied to an existing state. -/
def fromJsonString {B : Backend} {env : Env} (gio : GenIO env) (tio : TaIO B) (k : Kind) (old : EstState B env) (text : Bytes) : Res (EstState B env) :=
  (parse text).bind fun v => loadState gio tio k old v.value

/-- The same, with what it leaves of `state`. lib/src/tsetlini_state_json.cpp:299-325,344-370,389-415,434-460 -/
def fromJsonStringInto {B : Backend} {env : Env} (gio : GenIO env) (tio : TaIO B) (k : Kind) (st : EstState B env) (text : Bytes) : EstState B env × Res Unit :=
  match parse text with
  | .ok v => loadInto gio tio k st v.value
  | .exn e => (st, .exn e)
  | .ub u => (st, .ub u)
  | .timeout => (st, .timeout)

end Tsetlini
