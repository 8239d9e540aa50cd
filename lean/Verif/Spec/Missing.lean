import Verif.Model.Json
/- Documents without a certain member. -/
namespace Tsetlini.Spec

/-- The document has no member of that name: it is an object without it, or no object. -/
def Lacks (js : JVal) (key : String) : Prop := ∀ l, js = .obj l → ∀ v, (key, v) ∉ l

end Tsetlini.Spec
