import Verif.Model.Res
/- Reasoning rules for `Res`. -/
namespace Tsetlini
namespace Res

variable {α β γ : Type}

@[simp] theorem ok_bind (a : α) (f : α → Res β) : (Res.ok a).bind f = f a := rfl
@[simp] theorem ub_bind (u : UB) (f : α → Res β) : (Res.ub u).bind f = .ub u := rfl
@[simp] theorem exn_bind (u : Exn) (f : α → Res β) : (Res.exn u).bind f = .exn u := rfl
@[simp] theorem timeout_bind (f : α → Res β) : (Res.timeout).bind f = .timeout := rfl

theorem bind_assoc (r : Res α) (f : α → Res β) (g : β → Res γ) :
    (r.bind f).bind g = r.bind fun a => (f a).bind g := by cases r <;> rfl

theorem bind_eq_ok {r : Res α} {f : α → Res β} {b : β} :
    r.bind f = .ok b ↔ ∃ a, r = .ok a ∧ f a = .ok b := by
  cases r <;> simp

/-- The code returns normally with a value satisfying `P`. -/
def Ret (P : α → Prop) (r : Res α) : Prop := ∃ a, r = .ok a ∧ P a

theorem Ret.bind {P : α → Prop} {Q : β → Prop} {r : Res α} {f : α → Res β}
    (h : r.Ret P) (hf : ∀ a, P a → (f a).Ret Q) : (r.bind f).Ret Q := by
  obtain ⟨a, rfl, ha⟩ := h
  exact hf a ha

theorem Ret.mono {P Q : α → Prop} {r : Res α} (h : r.Ret P) (hpq : ∀ a, P a → Q a) : r.Ret Q := by
  obtain ⟨a, rfl, ha⟩ := h; exact ⟨a, rfl, hpq a ha⟩

@[simp] theorem ret_ok {P : α → Prop} {a : α} : (Res.ok a).Ret P ↔ P a := by simp [Ret]

theorem Post.bind {P : α → Prop} {Q : β → Prop} {r : Res α} {f : α → Res β}
    (h : r.Post P) (hf : ∀ a, P a → (f a).Post Q) : (r.bind f).Post Q := by
  cases r <;> simp_all [Post]

theorem Post.mono {P Q : α → Prop} {r : Res α} (h : r.Post P) (hpq : ∀ a, P a → Q a) : r.Post Q := by
  cases r <;> simp_all [Post]

@[simp] theorem post_ok {P : α → Prop} {a : α} : (Res.ok a).Post P ↔ P a := Iff.rfl

theorem Ret.post {P : α → Prop} {r : Res α} (h : r.Ret P) : r.Post P := by
  obtain ⟨a, rfl, ha⟩ := h; exact ha

theorem IfOk.bind {P : α → Prop} {Q : β → Prop} {r : Res α} {f : α → Res β}
    (h : r.IfOk P) (hf : ∀ a, P a → (f a).IfOk Q) : (r.bind f).IfOk Q := by
  cases r <;> simp_all [IfOk]

theorem ifOk_iff {P : α → Prop} {r : Res α} : r.IfOk P ↔ ∀ a, r = .ok a → P a := by
  cases r <;> simp [IfOk]

/-- `r` behaves like `s`: both return related values, or both run out of fuel, or both hit the
one undefined behaviour that specifications may exhibit (a number of feedback hits that does not
fit `unsigned`).  In particular `r` has no other undefined behaviour and does not throw. -/
def Refines (R : α → β → Prop) : Res α → Res β → Prop
  | ok a, ok b => R a b
  | timeout, timeout => True
  | ub .floatConv, ub .floatConv => True
  | _, _ => False

theorem Refines.cases {R : α → β → Prop} {r : Res α} {s : Res β} (h : r.Refines R s) :
    (∃ a b, r = .ok a ∧ s = .ok b ∧ R a b) ∨ (r = .timeout ∧ s = .timeout) ∨
      (r = .ub .floatConv ∧ s = .ub .floatConv) := by
  cases r with
  | ok a => cases s <;> simp_all [Refines]
  | ub u => cases s with
    | ub v => cases u <;> cases v <;> simp_all [Refines]
    | _ => cases u <;> simp_all [Refines]
  | exn u => cases s <;> simp_all [Refines]
  | timeout => cases s <;> simp_all [Refines]

theorem Refines.bind {α' β' : Type} {R : α → β → Prop} {R' : α' → β' → Prop}
    {r : Res α} {s : Res β} {f : α → Res α'} {g : β → Res β'}
    (h : r.Refines R s) (hf : ∀ a b, R a b → (f a).Refines R' (g b)) :
    (r.bind f).Refines R' (s.bind g) := by
  rcases h.cases with ⟨a, b, rfl, rfl, hr⟩ | ⟨rfl, rfl⟩ | ⟨rfl, rfl⟩
  · exact hf a b hr
  · trivial
  · trivial

theorem Refines.mono {R R' : α → β → Prop} {r : Res α} {s : Res β}
    (h : r.Refines R s) (hr : ∀ a b, R a b → R' a b) : r.Refines R' s := by
  rcases h.cases with ⟨a, b, rfl, rfl, h1⟩ | ⟨rfl, rfl⟩ | ⟨rfl, rfl⟩
  · exact hr a b h1
  · trivial
  · trivial

/-- Pre-compose with a step that certainly returns. -/
theorem Refines.ret_bind {α' β' : Type} {P : α → Prop} {R' : α' → β' → Prop}
    {r : Res α} {s : Res β'} {f : α → Res α'}
    (h : r.Ret P) (hf : ∀ a, P a → (f a).Refines R' s) : (r.bind f).Refines R' s := by
  obtain ⟨a, rfl, ha⟩ := h
  exact hf a ha

@[simp] theorem refines_ok_ok {R : α → β → Prop} {a : α} {b : β} :
    (Res.ok a).Refines R (.ok b) ↔ R a b := Iff.rfl

theorem Ret.refines {P : α → Prop} {R : α → β → Prop} {r : Res α} {b : β} (h : r.Ret P)
    (hr : ∀ a, P a → R a b) : r.Refines R (.ok b) := by
  obtain ⟨a, rfl, ha⟩ := h; exact hr a ha

theorem Refines.ok_left {R : α → β → Prop} {a : α} {s : Res β} (h : (Res.ok a).Refines R s) :
    ∃ b, s = .ok b ∧ R a b := by
  rcases h.cases with ⟨a', b, h1, h2, h3⟩ | ⟨h1, _⟩ | ⟨h1, _⟩
  · cases h1; exact ⟨b, h2, h3⟩
  · cases h1
  · cases h1

theorem Refines.ok_right {R : α → β → Prop} {b : β} {r : Res α} (h : r.Refines R (.ok b)) :
    ∃ a, r = .ok a ∧ R a b := by
  rcases h.cases with ⟨a, b', h1, h2, h3⟩ | ⟨_, h1⟩ | ⟨_, h1⟩
  · cases h2; exact ⟨a, h1, h3⟩
  · cases h1
  · cases h1

end Res

open Res

variable {ι σ α β : Type}

theorem rd_ok {l : List α} {i : Nat} (h : i < l.length) : rd l i = .ok l[i] := by
  simp [rd, List.getElem?_eq_getElem h]

theorem rd_of_getElem? {l : List α} {i : Nat} {a : α} (h : l[i]? = some a) : rd l i = .ok a := by
  simp [rd, h]

theorem rd_eq_ok {l : List α} {i : Nat} {a : α} : rd l i = .ok a ↔ l[i]? = some a := by
  unfold rd; cases l[i]? <;> simp

theorem wr_ok {l : List α} {i : Nat} {a : α} (h : i < l.length) : wr l i a = .ok (l.set i a) := by
  simp [wr, h]

theorem wr_eq_ok {l : List α} {i : Nat} {a : α} {l' : List α} :
    wr l i a = .ok l' ↔ i < l.length ∧ l.set i a = l' := by
  unfold wr; split
  · simp_all
  · simp_all; omega

@[simp] theorem iter_nil (f : ι → σ → Res σ) (s : σ) : iter [] f s = .ok s := rfl
@[simp] theorem iter_cons (i : ι) (is : List ι) (f : ι → σ → Res σ) (s : σ) :
    iter (i :: is) f s = (f i s).bind (iter is f) := rfl

theorem iter_append (l₁ l₂ : List ι) (f : ι → σ → Res σ) (s : σ) :
    iter (l₁ ++ l₂) f s = (iter l₁ f s).bind (iter l₂ f) := by
  induction l₁ generalizing s with
  | nil => rfl
  | cons i is ih =>
    simp only [List.cons_append, iter_cons, Res.bind_assoc]
    congr 1; funext a; exact ih a

theorem iter_ret {P : σ → Prop} {f : ι → σ → Res σ} (l : List ι) (s : σ) (h0 : P s)
    (hs : ∀ i ∈ l, ∀ s, P s → (f i s).Ret P) : (iter l f s).Ret P := by
  induction l generalizing s with
  | nil => simpa
  | cons i is ih =>
    exact Ret.bind (hs i (by simp) s h0) fun a ha =>
      ih a ha fun j hj => hs j (by simp [hj])

theorem iter_post {P : σ → Prop} {f : ι → σ → Res σ} (l : List ι) (s : σ) (h0 : P s)
    (hs : ∀ i ∈ l, ∀ s, P s → (f i s).Post P) : (iter l f s).Post P := by
  induction l generalizing s with
  | nil => simpa
  | cons i is ih =>
    exact Post.bind (hs i (by simp) s h0) fun a ha =>
      ih a ha fun j hj => hs j (by simp [hj])

theorem iter_ifOk {P : σ → Prop} {f : ι → σ → Res σ} (l : List ι) (s : σ) (h0 : P s)
    (hs : ∀ i ∈ l, ∀ s, P s → (f i s).IfOk P) : (iter l f s).IfOk P := by
  induction l generalizing s with
  | nil => exact h0
  | cons i is ih =>
    exact IfOk.bind (hs i (by simp) s h0) fun a ha =>
      ih a ha fun j hj => hs j (by simp [hj])

/-- Loop with an index-dependent invariant. -/
theorem iter_range'_ret {P : Nat → σ → Prop} {f : Nat → σ → Res σ} (n a : Nat) (s : σ)
    (h0 : P a s) (hs : ∀ k, a ≤ k → k < a + n → ∀ s, P k s → (f k s).Ret (P (k + 1))) :
    (iter (List.range' a n) f s).Ret (P (a + n)) := by
  induction n generalizing a s with
  | zero => simpa using h0
  | succ n ih =>
    rw [List.range'_succ, iter_cons]
    refine Ret.bind (hs a (Nat.le_refl _) (by omega) s h0) fun b hb => ?_
    have := ih (a + 1) b hb fun k h1 h2 => hs k (by omega) (by omega)
    rwa [Nat.add_assoc, Nat.add_comm 1 n] at this

theorem iter_range_ret {P : Nat → σ → Prop} {f : Nat → σ → Res σ} (n : Nat) (s : σ)
    (h0 : P 0 s) (hs : ∀ k, k < n → ∀ s, P k s → (f k s).Ret (P (k + 1))) :
    (iter (range 0 n) f s).Ret (P n) := by
  have := iter_range'_ret (P := P) (f := f) n 0 s h0 fun k _ h2 => hs k (by omega)
  simpa [range] using this

theorem iter_refines {τ : Type} {R : σ → τ → Prop} {f : ι → σ → Res σ} {g : ι → τ → Res τ}
    (l : List ι) (s : σ) (t : τ) (h0 : R s t)
    (hs : ∀ i ∈ l, ∀ s t, R s t → (f i s).Refines R (g i t)) :
    (iter l f s).Refines R (iter l g t) := by
  induction l generalizing s t with
  | nil => exact h0
  | cons i is ih =>
    exact Refines.bind (hs i (by simp) s t h0) fun a b hab =>
      ih a b hab fun j hj => hs j (by simp [hj])

theorem mem_range {a b i : Nat} : i ∈ range a b ↔ a ≤ i ∧ i < b := by
  simp [range, List.mem_range'_1]; omega

theorem range_nodup (a b : Nat) : (range a b).Nodup := List.nodup_range'

theorem i32_ok {x : Int} (h1 : -2147483648 ≤ x) (h2 : x ≤ 2147483647) : i32 x = .ok x := by
  simp [i32, h1, h2]

theorem i32_eq_ok {x y : Int} : i32 x = .ok y ↔ (-2147483648 ≤ x ∧ x ≤ 2147483647) ∧ x = y := by
  unfold i32; split
  · simp_all
  · simp_all; omega

theorem i64_ok {x : Int} (h1 : -9223372036854775808 ≤ x) (h2 : x ≤ 9223372036854775807) :
    i64 x = .ok x := by
  simp [i64, h1, h2]

/-- Writing every index of a permutation of a range with a value that does not depend on the
buffer gives the same buffer, whatever the order. -/
theorem iter_writes (v : Nat → α) (l : List Nat) (out : List α) (hl : ∀ o ∈ l, o < out.length) :
    ∃ out', iter l (fun o out => wr out o (v o)) out = .ok out' ∧ out'.length = out.length ∧
      ∀ i, i < out.length → out'[i]? = if i ∈ l then some (v i) else out[i]? := by
  induction l generalizing out with
  | nil => exact ⟨out, rfl, rfl, by simp⟩
  | cons o os ih =>
    have ho : o < out.length := hl o (by simp)
    obtain ⟨out', h1, h2, h3⟩ := ih (out.set o (v o)) (by
      intro j hj; simpa using hl j (by simp [hj]))
    refine ⟨out', ?_, by simpa using h2, ?_⟩
    · simp [wr_ok ho, h1]
    · intro i hi
      rw [h3 i (by simpa using hi)]
      by_cases hio : i ∈ os
      · simp [hio]
      · by_cases h : i = o
        · subst h; simp [hio, hi]
        · simp [hio, h, Ne.symm h]

end Tsetlini
