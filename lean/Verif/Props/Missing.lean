import Verif.Props.SessionTexts
import Verif.Spec.Missing
/- Documents in which a member is missing: C61. -/
namespace Tsetlini
open Res Spec

variable {a : Algo} {k : Kind} {env : Env} {gio : GenIO env}

theorem lacks_at {js : JVal} {key : String} (h : Lacks js key) : js.at' key = .exn .jsonError := by
  unfold JVal.at'
  split
  · rename_i l
    split
    · rename_i v hv
      exact absurd (mem_of_lookup' hv) (h l rfl v)
    · rfl
  · rfl

/-- **C61**: a document without one of the four members cannot be loaded, and everything from the missing member on stays as it was: without "igen", nothing
changes; without "fgen", at most the integer generator; without "ta_state", at most the generators; without "params", parameters and scratch memory stay. -/
theorem C61_missing (gio : GenIO env) (old : EstState a.backend env) (js : JVal) :
    (Lacks js "igen" → loadLeaves a k gio old js = (old, .exn .jsonError)) ∧
    (Lacks js "fgen" → ∃ g, (loadLeaves a k gio old js).1 = { old with igen := g } ∧ ∀ u, (loadLeaves a k gio old js).2 ≠ .ok u) ∧
    (Lacks js "ta_state" → ∃ g f, (loadLeaves a k gio old js).1 = { old with igen := g, fgen := f } ∧ ∀ u, (loadLeaves a k gio old js).2 ≠ .ok u) ∧
    (Lacks js "params" → ∃ g f ta, (loadLeaves a k gio old js).1 = { old with igen := g, fgen := f, ta := ta } ∧
      ∀ u, (loadLeaves a k gio old js).2 ≠ .ok u) := by
  refine ⟨fun h => ?_, fun h => ?_, fun h => ?_, fun h => ?_⟩ <;> unfold loadLeaves loadInto <;> rw [lacks_at h]
  · rfl
  · cases (js.at' "igen").bind gio.iOf <;> exact ⟨_, rfl, fun _ e => by cases e⟩
  · cases (js.at' "igen").bind gio.iOf <;> try exact ⟨_, _, rfl, fun _ e => by cases e⟩
    cases (js.at' "fgen").bind gio.fOf <;> exact ⟨_, _, rfl, fun _ e => by cases e⟩
  · cases (js.at' "igen").bind gio.iOf <;> try exact ⟨_, _, _, rfl, fun _ e => by cases e⟩
    cases (js.at' "fgen").bind gio.fOf <;> try exact ⟨_, _, _, rfl, fun _ e => by cases e⟩
    cases (js.at' "ta_state").bind a.io.ofJ <;> exact ⟨_, _, _, rfl, fun _ e => by cases e⟩

/-- **C78**: so a program may load any text that is not JSON or lacks the member "igen". -/
theorem C78_texts_without_igen {t : Bytes} (h : ∀ v, ReadText t v → Lacks v.value "igen") : Proper a k gio (.text t) :=
  C78_refused_texts fun v hv => ⟨.jsonError, by rw [lacks_at (h v hv)]; rfl⟩

/-! ### Cases -/

/-- `Lacks`, as a program. -/
def lacksB (key : String) : JVal → Bool
  | .obj l => l.all fun e => e.1 != key
  | _ => true

theorem lacks_iff {js : JVal} {key : String} : Lacks js key ↔ lacksB key js = true := by
  unfold lacksB Lacks
  cases js with
  | obj l =>
    simp only [JVal.obj.injEq, List.all_eq_true, bne_iff_ne, ne_eq]
    exact ⟨fun h e he hk => h l rfl e.2 (hk ▸ he), fun h m hm v hv => h (key, v) (hm ▸ hv) rfl⟩
  | _ => simp

/-- `{"fgen":[]}`, `[]`, and, which is not JSON, `{`. -/
example (t : Bytes) (ht : t ∈ [[123, 34, 102, 103, 101, 110, 34, 58, 91, 93, 125], [91, 93], [123]]) (v : TVal) (hv : ReadText t v) :
    Lacks v.value "igen" := by
  have hc : ∀ t ∈ [[123, 34, 102, 103, 101, 110, 34, 58, 91, 93, 125], [91, 93], [123]],
      (match parse t with | .ok v => lacksB "igen" v.value | _ => true) = true := by decide +kernel
  have h := hc t ht
  rw [parse_iff.2 hv] at h
  exact lacks_iff.2 h

/-- The saved document of a trained estimator, and the same without its parameters. -/
example : Lacks Toy.noParams "params" ∧ ¬ Lacks Toy.noParams "igen" ∧ ¬ Lacks Toy.noParams "fgen" ∧ ¬ Lacks Toy.noParams "ta_state" ∧
    ¬ Lacks (save .classic .classifier Toy.gio Toy.narrow) "params" := by
  simp only [lacks_iff]
  decide +kernel

end Tsetlini
