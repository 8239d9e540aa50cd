import Verif.Model.Classic
import Verif.Lemmas.Res
/- The tiled loop visits everything it needs to. -/
namespace Tsetlini
open Res

/-- What one visit of item `f` does to the state of the tiled loop. -/
structure TileStep {σ : Type} (step : Nat → σ → Res σ) (stop incl' : σ → Bool) (Good : σ → Prop)
    (viol incl : Nat → Bool) (n : Nat) : Prop where
  step_ok : ∀ f, f < n → ∀ st, Good st →
    (step f st).Ret fun st' => Good st' ∧ stop st' = (stop st || viol f) ∧
      incl' st' = (incl' st || incl f)

/-- Items below `k` have been visited. -/
def Visited {σ : Type} (stop incl' : σ → Bool) (Good : σ → Prop) (viol incl : Nat → Bool)
    (k : Nat) (st : σ) : Prop :=
  Good st ∧ (stop st = true ↔ ∃ f, f < k ∧ viol f = true) ∧
    (incl' st = true ↔ ∃ f, f < k ∧ incl f = true)

variable {σ : Type} {step : Nat → σ → Res σ} {stop incl' : σ → Bool} {Good : σ → Prop}
  {viol incl : Nat → Bool} {n : Nat}

private theorem or_succ {b : Bool} {p : Nat → Bool} {k : Nat}
    (h : b = true ↔ ∃ f, f < k ∧ p f = true) :
    (b || p k) = true ↔ ∃ f, f < k + 1 ∧ p f = true := by
  rw [Bool.or_eq_true, h]
  constructor
  · rintro (⟨f, hf, hp⟩ | hp)
    · exact ⟨f, by omega, hp⟩
    · exact ⟨k, by omega, hp⟩
  · rintro ⟨f, hf, hp⟩
    by_cases hk : f = k
    · subst hk; exact .inr hp
    · exact .inl ⟨f, by omega, hp⟩

theorem visited_step (h : TileStep step stop incl' Good viol incl n) {k : Nat} (hk : k < n) {st : σ}
    (hv : Visited stop incl' Good viol incl k st) :
    (step k st).Ret (Visited stop incl' Good viol incl (k + 1)) := by
  obtain ⟨hg, hs, hi⟩ := hv
  refine (h.step_ok k hk st hg).mono fun st' ⟨hg', hs', hi'⟩ => ⟨hg', ?_, ?_⟩
  · rw [hs']; exact or_succ hs
  · rw [hi']; exact or_succ hi

/-- Final verdict: stopped iff there is a violation; without one everything was visited. -/
def Done (stop incl' : σ → Bool) (viol incl : Nat → Bool) (n : Nat) (st : σ) : Prop :=
  (stop st = true ↔ ∃ f, f < n ∧ viol f = true) ∧
    (stop st = false → (incl' st = true ↔ ∃ f, f < n ∧ incl f = true))

theorem tileTail_done (h : TileStep step stop incl' Good viol incl n) (m k : Nat) (hk : k + m = n)
    (st : σ) (hv : Visited stop incl' Good viol incl k st) :
    (tileTail step stop (List.range' k m) st).Ret (Done stop incl' viol incl n) := by
  induction m generalizing k st with
  | zero =>
    obtain rfl : k = n := by omega
    simp only [List.range'_zero, tileTail, ret_ok]
    exact ⟨hv.2.1, fun _ => hv.2.2⟩
  | succ m ih =>
    rw [List.range'_succ, tileTail]
    by_cases hs : stop st = true
    · simp only [hs, if_true, ret_ok]
      refine ⟨?_, by simp [hs]⟩
      rw [hv.2.1]
      constructor
      · rintro ⟨f, hf, hp⟩; exact ⟨f, by omega, hp⟩
      · intro _; exact hv.2.1.mp hs
    · simp only [hs]
      exact Ret.bind (visited_step h (by omega) hv) fun a ha => ih (k + 1) (by omega) a ha

theorem iter_visited (h : TileStep step stop incl' Good viol incl n) (m k : Nat) (hk : k + m ≤ n)
    (st : σ) (hv : Visited stop incl' Good viol incl k st) :
    (iter (List.range' k m) step st).Ret (Visited stop incl' Good viol incl (k + m)) :=
  iter_range'_ret m k st hv fun j h1 h2 _ hs => visited_step h (by omega) hs

theorem tileBatch_visited (h : TileStep step stop incl' Good viol incl n) (B : Nat) (hB : 0 < B)
    (kk : Nat) (hkk : kk ≤ n) (st : σ) (hv : Visited stop incl' Good viol incl kk st) :
    (tileBatch step stop B hB n kk st).Ret fun r =>
      (r.1 ≤ n ∧ Visited stop incl' Good viol incl r.1 r.2) ∨
      (stop r.2 = true ∧ ∃ f, f < n ∧ viol f = true) := by
  unfold tileBatch
  split
  next hlt =>
    have hle : kk + B ≤ n := by omega
    have : range kk (B + kk) = List.range' kk B := by simp [range]
    rw [this]
    refine Ret.bind (iter_visited h B kk hle st hv) fun a ha => ?_
    by_cases hs : stop a = true
    · simp only [hs, if_true, ret_ok]
      obtain ⟨f, hf, hp⟩ := ha.2.1.mp hs
      exact .inr ⟨trivial, f, by omega, hp⟩
    · simp only [hs]
      exact tileBatch_visited h B hB (kk + B) hle a ha
  next =>
    simp only [ret_ok]
    exact .inl ⟨hkk, hv⟩
termination_by n - kk

theorem tileLoops_done (h : TileStep step stop incl' Good viol incl n) (t : Tile) (st : σ)
    (hv : Visited stop incl' Good viol incl 0 st) :
    (tileLoops step stop t n st).Ret (Done stop incl' viol incl n) := by
  refine Ret.bind (tileBatch_visited h t.size t.size_pos 0 (Nat.zero_le _) st hv) ?_
  rintro ⟨kk, st'⟩ (⟨h1, h2⟩ | ⟨h1, h2⟩)
  · exact tileTail_done h (n - kk) kk (by dsimp at h1; omega) st' h2
  · have hd : Done stop incl' viol incl n st' := ⟨by simpa [h1] using h2, by simp_all⟩
    dsimp only at h1
    show Ret _ (tileTail step stop (range kk n) st')
    cases hr : range kk n with
    | nil => simpa [tileTail] using hd
    | cons f fs => simpa [tileTail, h1] using hd

end Tsetlini
