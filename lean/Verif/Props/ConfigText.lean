import Verif.Model.ParamsText
import Verif.Lemmas.JsonComplete
import Verif.Lemmas.TextStrings
import Verif.Props.Factory
/- Factories that read a text: C74. -/
namespace Tsetlini
open Res Spec

/-- The keys of an object that was read, as strings, are different. -/
theorem read_keys {l : List (Bytes × TVal)} (hw : Wide (.obj l)) (he : Encoded (.obj l)) :
    ((valueMembers l).map Prod.fst).Nodup := by
  cases hw with
  | obj _ _ hs =>
    cases he with
    | obj _ hu =>
      rw [valueMembers_map, List.map_map]
      unfold List.Nodup
      rw [List.pairwise_map]
      rw [List.pairwise_map] at hs
      refine List.Pairwise.imp_of_mem ?_ hs
      intro x y hx hy h e
      have := stringOf_inj (hu x hx) (hu y hy) e
      rw [this] at h
      exact absurd h (List.lt_irrefl _)

theorem text_typed {t : Bytes} {v : TVal} (h : parse t = .ok v) (k : Kind) : ReqTyped (Request.json k (.ok v.value)) := by
  have key : ∀ l, (Except.ok v.value : Except String JVal) = .ok (.obj l) → (l.map Prod.fst).Nodup := by
    intro l hl
    have hl : v.value = .obj l := by injection hl
    rcases parse_total t with e | ⟨v', e, hv⟩
    · rw [h] at e; cases e
    · have : v = v' := Res.ok.inj (h.symm.trans e)
      subst this
      cases v with
      | obj m =>
        have : valueMembers m = l := by injection hl
        rw [← this]
        exact read_keys hv.wide hv.encoded
      | float x => cases x <;> cases hl
      | _ => cases hl
  cases k <;> exact key

/-- **C74**: a JSON text (C75) asks for what its value asks for (C26 to C29, C47); no two of its members have the same name, so these apply
without further assumptions. -/
theorem C74_value (m : Machine) (io : RealIO) (k : Kind) {t : Bytes} {v : TVal} (h : ReadText t v) :
    makeFromText m io k t = make m io (Request.json k (.ok v.value)) ∧ ReqTyped (Request.json k (.ok v.value)) := by
  have h := parse_iff.2 h
  refine ⟨?_, text_typed h k⟩
  unfold makeFromText jsonParse
  rw [h]
  cases k <;> rfl

/-- **C74**: a text that is not a JSON object is rejected with S_BAD_JSON. -/
theorem C74_not_an_object (m : Machine) (io : RealIO) (k : Kind) {t : Bytes} (h : ∀ l, ¬ ReadText t (.obj l)) :
    ∃ s, makeFromText m io k t = .ok (.error s) ∧ s.code = .badJson := by
  rcases parse_total t with e | ⟨v, e, -⟩
  · unfold makeFromText jsonParse
    rw [e]
    cases k <;> exact ⟨_, rfl, rfl⟩
  · have e' := parse_iff.1 e
    rw [(C74_value m io k e').1]
    refine C27_not_an_object k m io fun l hl => ?_
    have hl : v.value = .obj l := by injection hl
    cases v with
    | obj m => exact h _ e'
    | float x => cases x <;> cases hl
    | _ => cases hl

/-- **C74**: an estimator made from a text is one that everything said of estimators made by factories is true of. -/
theorem C74_made {m : Machine} {io : RealIO} {k : Kind} {t : Bytes} {p : Params} (h : makeFromText m io k t = .ok (.ok p)) : Made k p := by
  rcases parse_total t with e | ⟨v, e, -⟩
  · unfold makeFromText jsonParse at h
    rw [e] at h
    cases k <;> cases h
  · obtain ⟨h1, h2⟩ := C74_value m io k (parse_iff.1 e)
    rw [h1] at h
    exact ⟨m, io, _, h2, h⟩

/-- **C74**: whatever the bytes are, the factory returns an estimator or a status, unless the text is a JSON object one of whose members is ill-typed (then it
throws) or a fraction too great for an integer parameter (undefined behaviour).  It always ends. -/
theorem C74_outcome (m : Machine) (io : RealIO) (k : Kind) (t : Bytes) :
    (∃ r, makeFromText m io k t = .ok r) ∨
    ∃ l key j, ReadText t (.obj l) ∧ (key, j) ∈ valueMembers l ∧
      ((makeFromText m io k t = .exn .jsonError ∧ MemberFault key j .illTyped) ∨ (makeFromText m io k t = .ub .floatConv ∧ MemberFault key j .outOfRange)) := by
  by_cases h : ∃ l, ReadText t (.obj l)
  · obtain ⟨l, hl⟩ := h
    obtain ⟨h1, h2⟩ := C74_value m io k hl
    have e : (TVal.obj l).value = .obj (valueMembers l) := rfl
    rw [e] at h1 h2
    rcases members_cases (valueMembers l) with hok | ⟨pre, key, j, f, post, he, h3, h4⟩
    · left
      have hr := C27_faultless_requests k io hok
      by_cases ha : Acceptable k (requestedJson io k (valueMembers l))
      · obtain ⟨p, hp⟩ := (C26_accepts_exactly hr h2 m).2 ha
        exact ⟨_, h1.trans hp⟩
      · obtain ⟨s, hs, -⟩ := C26_rejects hr h2 m ha
        exact ⟨_, h1.trans hs⟩
    · rw [he] at h1
      rw [C27_first_fault k m io h3 h4] at h1
      have hm : (key, j) ∈ valueMembers l := by rw [he]; simp
      cases f with
      | unknownKey => exact .inl ⟨_, h1⟩
      | illTyped => exact .inr ⟨l, key, j, hl, hm, .inl ⟨h1, h4⟩⟩
      | outOfRange => exact .inr ⟨l, key, j, hl, hm, .inr ⟨h1, h4⟩⟩
  · obtain ⟨s, hs, -⟩ := C74_not_an_object m io k (t := t) fun l hl => h ⟨l, hl⟩
    exact .inl ⟨_, hs⟩

/-! ### Cases -/

/-- The text `{ "threshold": 20, "loss_fn": "berHu" }`. -/
def Toy.configText : Bytes := bytesOf "{ \"threshold\": 20, \"loss_fn\": \"berHu\" }"

example : ∃ p, makeFromText Toy.machine Toy.io .regressor Toy.configText = .ok (.ok p) := by
  have h : (match makeFromText Toy.machine Toy.io .regressor Toy.configText with | .ok (.ok _) => true | _ => false) = true := by decide +kernel
  revert h
  generalize makeFromText Toy.machine Toy.io .regressor Toy.configText = r
  intro h
  split at h
  · exact ⟨_, rfl⟩
  · cases h

/-- An ill-typed value throws. -/
example : (match makeFromText Toy.machine Toy.io .classifier (bytesOf "{\"threshold\":\"15\"}") with | .exn .jsonError => true | _ => false) = true := by decide +kernel

/-- Trailing text, a missing comma, an unescaped line feed and bytes that are not UTF-8 are not JSON. -/
example : (parse (bytesOf "{}x")).isOk = false ∧ (parse (bytesOf "[1 2]")).isOk = false ∧ (parse (bytesOf "[\"\n\"]")).isOk = false ∧
    (parse [91, 34, 0xC3, 0x28, 34, 93]).isOk = false := by decide +kernel

end Tsetlini
