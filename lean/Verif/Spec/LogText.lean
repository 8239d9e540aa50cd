import Verif.Model.LogText
import Verif.Spec.JsonGrammar
/-
How a log is read.
-/
namespace Tsetlini.Spec

/-- A text that is the decimal notation of a number, like 12, 2.5, 1e+06 and -0.1. -/
inductive Decimal : Bytes → Rat → Prop
  | pos {int frac exp ds : Bytes} {e : Int} : IntText int → FracText frac ds → ExpText exp e → Decimal (int ++ frac ++ exp) (decimal int ds e)
  | neg {int frac exp ds : Bytes} {e : Int} : IntText int → FracText frac ds → ExpText exp e → Decimal ([45] ++ int ++ frac ++ exp) (-decimal int ds e)

/-- `v` is `q` to six significant digits: it has at most six, is off by no more than half a unit of the sixth digit, hence by no more than 5 millionths of `q`, and equal to it when six digits suffice. -/
def SixDigits (q v : Rat) : Prop := v.abs ≤ q.abs + q.abs / 200000 ∧ q.abs ≤ v.abs + q.abs / 200000 ∧ (0 ≤ q ↔ 0 ≤ v) ∧
  (∃ j k : Int, v = j * (10 : Rat) ^ k ∧ j.natAbs < 1000000) ∧ ∀ j k : Int, q = j * (10 : Rat) ^ k → j.natAbs < 1000000 → v = q

/-- The text shown for a value. -/
inductive Shown : PVal → Bytes → Prop
  | int {i : Int} {t : Bytes} : Decimal t i → Shown (.int i) t
  | seed {s : BitVec 32} {t : Bytes} : Decimal t s.toNat → Shown (.seed s) t
  | real {q v : Rat} {t : Bytes} : Decimal t v → SixDigits q v → Shown (.real (.fin q)) t
  | nan : Shown (.real .nan) (ascii "nan")
  | inf : Shown (.real (.inf false)) (ascii "inf")
  | negInf : Shown (.real (.inf true)) (ascii "-inf")
  | no : Shown (.bool false) (ascii "0")
  | yes : Shown (.bool true) (ascii "1")
  | str {s : String} : Shown (.str s) (ascii s)

/-- The text of a line, without its end. -/
inductive LineShown : LogLine → Bytes → Prop
  | param {name : String} {v : PVal} {t : Bytes} : Shown v t → LineShown (.param name v) (ascii "INFO:tsetlini-core:" ++ ascii name ++ ascii ": " ++ t)
  | selected {ct : String} : LineShown (.selected ct) (ascii "TRACE:tsetlini-core:Selected " ++ ascii ct ++ ascii " for ta_state")
  | epoch {n : Nat} {t : Bytes} : Decimal t (n : Int) → LineShown (.epoch n) (ascii "INFO:tsetlini:Epoch " ++ t)

/-- A text of lines: each is followed by the end of a line, and nowhere else is one. -/
def Lines (text : Bytes) (ts : List Bytes) : Prop := text = ts.flatMap (· ++ [10]) ∧ ∀ t ∈ ts, 10 ∉ t

end Tsetlini.Spec
