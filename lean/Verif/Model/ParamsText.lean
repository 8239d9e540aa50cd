import Verif.Model.ParamsMake
import Verif.Model.StateText
/- The factories that read a configuration from a text. -/
namespace Tsetlini

/-- `json_parse`, lib/src/tsetlini_params.cpp:81-92: whatever `json::parse` throws becomes S_BAD_JSON.  Simplification: the message is not the parser's. -/
def jsonParse (text : Bytes) : Res (Except String JVal) :=
  match parse text with
  | .ok v => .ok (.ok v.value)
  | .exn _ => .ok (.error "parse error")
  | .ub u => .ub u
  | .timeout => .timeout

/-- The parameters of the estimator that `make_classifier_*_from_json(text)` and `make_regressor_*_from_json(text)` make, or the error.
lib/src/tsetlini_params.cpp:426-448,507-530, lib/src/tsetlini.cpp:1055-1071,1222-1231,1480-1508,1627-1655 -/
def makeFromText (m : Machine) (io : RealIO) (k : Kind) (text : Bytes) : Res EParams :=
  (jsonParse text).bind fun doc => match k with
  | .classifier => makeClassifierParamsFromJson m io doc
  | .regressor => makeRegressorParamsFromJson m io doc

end Tsetlini
