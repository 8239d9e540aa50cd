import Verif.Model.Json
import Verif.Model.StateEq
import Verif.Model.Bitwise
import Verif.Model.Mt
/-
Saving and loading estimator states, lib/src/tsetlini_state_json.cpp.

The text is modelled in StateText (C73 relates the two).  Here a saved state is the value that `json::parse` makes of the text that `dump()` made of
the document: a non-negative integer comes back as `unsigned`, a negative one as `integer`, a finite
`double` as the same `double` (`dump` prints the shortest digits that determine it, with ".0" if there is no
fraction), a non-finite one as `null`, everything else as itself (lib/src/json/json.hpp, vendored).
-/
namespace Tsetlini

/-- A signed integer after `dump()` and `parse()`. lib/src/tsetlini_state_json.cpp:74-90,211-274 -/
def JVal.ofInt (i : Int) : JVal := if 0 ≤ i then .unsigned i.toNat else .integer i

/-- `at(key)` of a document: throws when it is not an object or has no such member. JSON library; used at lib/src/tsetlini_state_json.cpp:211-310. -/
def JVal.at' (key : String) : JVal → Res JVal
  | .obj l => match l.lookup key with
    | some v => .ok v
    | none => .exn .jsonError
  | _ => .exn .jsonError

/-- `get<std::vector<T>>()`: an array, every element converted. JSON library; used at lib/src/tsetlini_state_json.cpp:171-199,306. -/
def JVal.getVec {α : Type} (f : JVal → Res α) : JVal → Res (List α)
  | .arr l => l.foldr (fun j r => (f j).bind fun v => r.bind fun vs => .ok (v :: vs)) (.ok [])
  | _ => .exn .jsonError

/-- `size()` of a document: null has none, arrays and objects have their number of members, everything
else counts one; lib/src/json/json.hpp:22114-22149. -/
def JVal.size : JVal → Nat
  | .null => 0
  | .arr l => l.length
  | .obj l => l.length
  | _ => 1

/-- The elements `cbegin() .. cend()` of a document. JSON library; used at lib/src/tsetlini_state_json.cpp:29-63. -/
def JVal.items : JVal → List JVal
  | .null => []
  | .arr l => l
  | .obj l => l.map (·.2)
  | j => [j]

/-- `get<float>()`, lib/src/json/json.hpp:4896-4936: conversion of a `double` (here without overflow). -/
def JVal.getFloat (rnd : Rat → Rat) : JVal → Res Rat
  | .unsigned n => .ok (rnd n)
  | .integer i => .ok (rnd i)
  | .float q => .ok (rnd q)
  | .bool b => .ok (rnd (if b then 1 else 0))
  | _ => .exn .jsonError

/-- `get<uint64_t>()` (also `std::size_t`): `get_arithmetic_value`, lib/src/json/json.hpp:4607-4637. -/
def JVal.getU64 : JVal → Res (BitVec 64)
  | .unsigned n => .ok (BitVec.ofNat 64 n)
  | .integer i => .ok (BitVec.ofInt 64 i)
  | .float q =>
    let t : Int := if 0 ≤ q then q.floor else -((-q).floor)
    if 0 ≤ t ∧ t ≤ 18446744073709551615 then .ok (BitVec.ofInt 64 t) else .ub .floatConv
  | _ => .exn .jsonError

/-! ### Generators -/

/-- `to_json(json &, IRNG const &)` and `to_json(json &, FRNG const &)`, lib/src/tsetlini_state_json.cpp:20-26,43-49. -/
def Mt.toJson {V : Type} (f : V → JVal) (m : Mt V) : JVal :=
  .obj [("MT", .arr (m.mt.map fun w => .unsigned w.toNat)), ("RES", .arr (m.res.map f)), ("index", .unsigned m.index)]

/-- `std::copy(src.cbegin(), src.cend(), dst)` into a table. lib/src/tsetlini_state_json.cpp:29-40,52-63 -/
def copyInto {α : Type} (src dst : List α) : Res (List α) :=
  if src.length ≤ dst.length then .ok (src ++ dst.drop src.length) else .ub .oob

/-- `from_json(json const &, IRNG &)` and `from_json(json const &, FRNG &)`, lib/src/tsetlini_state_json.cpp:29-40,52-63.
`m` is the default constructed generator that `get<IRNG>()` starts from. -/
def Mt.ofJson {V : Type} (f : JVal → Res V) (m : Mt V) (j : JVal) : Res (Mt V) :=
  (j.at' "index").bind fun x => x.getSeed.bind fun index =>
  (j.at' "RES").bind fun x => (x.getVec f).bind fun res => (copyInto res m.res).bind fun res =>
  (j.at' "MT").bind fun x => (x.getVec JVal.getSeed).bind fun mt => (copyInto mt m.mt).bind fun mt =>
  .ok ⟨index.toNat, res, mt⟩

/-- How the generators of an environment are saved and loaded: functions into and from documents, without assumptions.
`realGenIO` (Lemmas/StateJson.lean) is the library's, built from `Mt.toJson` and `Mt.ofJson`. lib/src/tsetlini_state_json.cpp:211-274 -/
structure GenIO (env : Env) where
  iTo : env.G → JVal
  iOf : JVal → Res env.G
  fTo : env.F → JVal
  fOf : JVal → Res env.F

/-! ### Automata -/

/-- `to_json` of the counter matrix, lib/src/tsetlini_state_json.cpp:66-95. -/
def Matrix.toJson (m : Matrix) : JVal :=
  .obj [("data", .arr (m.rows.map fun r => .arr (r.map JVal.ofInt))), ("width", .unsigned m.ctype.bytes)]

/-- The alternative `from_json` picks, lib/src/tsetlini_state_json.cpp:106-117. -/
def ctypeOfWidth (w : BitVec 64) : CType := if w = 1#64 then .int8 else if w = 2#64 then .int16 else .int32

/-- One row of `from_json`, lib/src/tsetlini_state_json.cpp:119-130: each element is converted to the counter type.
Simplification: a row whose length is not that of the first one (a file this library did not write) is
`ub`; in the code it overwrites other rows or leaves part of this one as it is. -/
def rowOfJson (ct : CType) (nc : Nat) (j : JVal) : Res (List Int) :=
  if j.size ≠ nc then .ub .oob else
  (JVal.getVec JVal.getInt (.arr j.items)).bind fun vs => .ok (vs.map ct.store)

/-- The elements that `size()` counts and the constant `operator[]` finds: those of an array; anything else makes
`operator[]` throw, lib/src/json/json.hpp:21272-21281. -/
def JVal.rowsOf : JVal → Res (List JVal)
  | .arr l => .ok l
  | _ => .exn .jsonError

/-- `from_json` of the counter matrix, lib/src/tsetlini_state_json.cpp:98-130.  `data[0]` of an empty
array is a reference to nothing; a matrix whose size wraps is written out of bounds. -/
def Matrix.ofJson (j : JVal) : Res Matrix :=
  (j.at' "width").bind fun w => w.getU64.bind fun width =>
  (j.at' "data").bind fun d => d.rowsOf.bind fun data =>
  (rd data 0).bind fun row0 =>
  let nc := row0.size
  let ct := ctypeOfWidth width
  if allocOk ct.bytes data.length nc = false then .ub .oob else
  (data.foldr (fun j r => (rowOfJson ct nc j).bind fun v => r.bind fun vs => .ok (v :: vs)) (.ok [])).bind fun rows =>
  .ok ⟨ct, nc, rows⟩

/-- `to_json` of the polarity matrix, lib/src/tsetlini_state_json.cpp:134-143; `m_v` is all rows one after
the other, `cols` the number of features. -/
def polToJson (cols : Nat) (pol : List (List Block)) : JVal :=
  .obj [("cols", .unsigned cols), ("data", .arr (pol.flatten.map fun b => .unsigned b.toNat)), ("rows", .unsigned pol.length)]

/-- `from_json` of the polarity matrix, lib/src/tsetlini_state_json.cpp:147-159; row `r` is the slice
`[r * row_blocks, (r + 1) * row_blocks)` of `m_v` (lib/include/basic_bit_matrix.hpp:122-128,198-205). -/
def polOfJson (j : JVal) : Res (List (List Block)) :=
  (j.at' "rows").bind fun x => x.getSeed.bind fun rows =>
  (j.at' "cols").bind fun x => x.getSeed.bind fun cols =>
  (j.at' "data").bind fun x => (x.getVec JVal.getU64).bind fun v =>
  .ok ((List.range rows.toNat).map fun r => (v.drop (r * rowBlocks cols.toNat)).take (rowBlocks cols.toNat))

/-- How the automata of a family are saved and loaded. lib/src/tsetlini_state_json.cpp:74-199 -/
structure TaIO (B : Backend) where
  toJ : TA B → JVal
  ofJ : JVal → Res (TA B)

/-- Weights: `json(std::vector<unsigned>)`. lib/src/tsetlini_state_json.cpp:171,189 -/
def weightsToJson (ws : List Nat) : JVal := .arr (ws.map .unsigned)

/-- lib/src/tsetlini_state_json.cpp:180,199 -/
def weightsOfJson (j : JVal) : Res (List Nat) := (j.getVec JVal.getSeed).bind fun ws => .ok (ws.map BitVec.toNat)

/-- `to_json` / `from_json` of `TAState::value_type`, lib/src/tsetlini_state_json.cpp:166-181. -/
def classicIO : TaIO classic where
  toJ ta := .obj [("matrix", Matrix.toJson ta.mat), ("weights", weightsToJson ta.weights)]
  ofJ j :=
    (j.at' "matrix").bind fun x => (Matrix.ofJson x).bind fun m =>
    (j.at' "weights").bind fun x => (weightsOfJson x).bind fun ws =>
    .ok ⟨m, ws⟩

/-- `to_json` / `from_json` of `TAStateWithPolarity::value_type`, lib/src/tsetlini_state_json.cpp:184-201. -/
def bitwiseIO : TaIO bitwise where
  toJ ta :=
    let m : PMatrix := ta.mat
    .obj [("matrix", Matrix.toJson m.m), ("polarity", polToJson m.m.cols m.pol), ("weights", weightsToJson ta.weights)]
  ofJ j :=
    (j.at' "matrix").bind fun x => (Matrix.ofJson x).bind fun m =>
    (j.at' "weights").bind fun x => (weightsOfJson x).bind fun ws =>
    (j.at' "polarity").bind fun x => (polOfJson x).bind fun pol =>
    .ok ⟨(⟨m, pol⟩ : PMatrix), ws⟩

/-! ### Parameters -/

/-- `adl_serializer<param_value_t>::to_json`, lib/src/tsetlini_state_json.cpp:214-245, and the text in between. -/
def PVal.toJson : PVal → JVal
  | .int v => JVal.ofInt v
  | .seed v => .unsigned v.toNat
  | .real (.fin q) => .float q
  | .real _ => .null
  | .bool b => .bool b
  | .str s => .str s
  | .none => .null

/-- `adl_serializer<param_value_t>::from_json`, lib/src/tsetlini_state_json.cpp:247-273; an array or object leaves the
default constructed variant, an `int` 0. -/
def PVal.ofJson (rnd : Rat → Rat) : JVal → Res PVal
  | .bool b => .ok (.bool b)
  | .unsigned n => (JVal.getSeed (.unsigned n)).bind fun v => .ok (.seed v)
  | .float q => .ok (.real (.fin (rnd q)))
  | .integer i => (JVal.getInt (.integer i)).bind fun v => .ok (.int v)
  | .str s => .ok (.str s)
  | .null => .ok .none
  | _ => .ok (.int 0)

/-- `js["params"] = state.m_params`. lib/src/tsetlini_state_json.cpp:293 -/
def Params.toJson (p : Params) : JVal := .obj (p.map fun e => (e.1, e.2.toJson))

/-- The "hack": a `seed_type` that is not the random state becomes an `int`,
lib/src/tsetlini_state_json.cpp:315-321 (and 360-366, 405-411, 450-456). -/
def recast (key : String) (v : PVal) : PVal :=
  match v with
  | .seed b => if key ≠ "random_state" then .int b.toInt else .seed b
  | v => v

/-- `js.at("params").get<params_t>()` and the hack. lib/src/tsetlini_state_json.cpp:306 -/
def Params.ofJson (rnd : Rat → Rat) : JVal → Res Params
  | .obj l => l.foldr (fun e r => (PVal.ofJson rnd e.2).bind fun v => r.bind fun vs => .ok ((e.1, recast e.1 v) :: vs)) (.ok [])
  | _ => .exn .jsonError

/-! ### States -/

/-- `to_json_string`, lib/src/tsetlini_state_json.cpp:283-296,328-341,373-386,418-431. -/
def saveState {B : Backend} {env : Env} (gio : GenIO env) (tio : TaIO B) (algo : String) (k : Kind)
    (st : EstState B env) : JVal :=
  .obj [("algo", .str algo),
        ("estimator", .str (match k with | .classifier => "classifier" | .regressor => "regressor")),
        ("fgen", gio.fTo st.fgen), ("igen", gio.iTo st.igen), ("params", st.params.toJson), ("ta_state", tio.toJ st.ta)]

/-- `from_json_string`, lib/src/tsetlini_state_json.cpp:299-325,344-370,389-415,434-460, applied to an existing state, all of which
is replaced; the members "algo" and "estimator" are not looked at. -/
def loadState {B : Backend} {env : Env} (gio : GenIO env) (tio : TaIO B) (k : Kind) (old : EstState B env)
    (js : JVal) : Res (EstState B env) :=
  (js.at' "igen").bind fun x => (gio.iOf x).bind fun igen =>
  (js.at' "fgen").bind fun x => (gio.fOf x).bind fun fgen =>
  (js.at' "ta_state").bind fun x => (tio.ofJ x).bind fun ta =>
  (js.at' "params").bind fun x => (Params.ofJson env.rnd x).bind fun params =>
  (resetCache env k params old.cache.tick).bind fun cache =>
  .ok ⟨params, ta, cache, igen, fgen⟩

end Tsetlini
