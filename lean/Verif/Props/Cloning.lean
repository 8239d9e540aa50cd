import Verif.Lemmas.Cloning
import Verif.Props.Shared
import Verif.Props.Twins
import Verif.Props.SavedText
/-
C77: clones made and states saved while read-only calls are in flight.
-/
namespace Tsetlini
open Res Spec

variable {a : Algo} {k : Kind} {env : Env} {ests : List (EstState a.backend env)} {calls : List (Nat × Call a.Sample k)} {ts : List Nat} {scs : Nat → Sched}

/-- The content of the memories while read-only calls are in flight. -/
def contents (ests : List (EstState a.backend env)) (cfg : Nat → Cfg) (t : Nat) : Content :=
  match ests[t]? with
  | some st => ⟨st.cache.clauseOutput.length, st.cache.labelSum.length, fun _ _ => True, fun _ v => -(cfg t).T ≤ v ∧ v ≤ (cfg t).T⟩
  | none => ⟨0, 0, fun _ _ => False, fun _ _ => False⟩

theorem contents_at {cfg : Nat → Cfg} {t : Nat} {st : EstState a.backend env} (h : ests[t]? = some st) :
    contents ests cfg t = ⟨st.cache.clauseOutput.length, st.cache.labelSum.length, fun _ _ => True, fun _ v => -(cfg t).T ≤ v ∧ v ≤ (cfg t).T⟩ := by
  unfold contents; rw [h]

theorem contents_mem (h : ReadOnlyProgram a k ests calls) {cfg : Nat → Cfg} (hF : ProgramFacts a k ests cfg)
    (hts : ∀ t ∈ ts, t < ests.length) (n : Nat) (P : Program) (hi : Interleaving n (Program.start scs ests calls) P) (t : Nat) (ht : t ∈ ts) :
    ∃ m, P.mems[t]? = some m ∧ (contents ests cfg t).Has m := by
  have he : ests[t]? = some (ests[t]'(hts t ht)) := List.getElem?_eq_getElem (hts t ht)
  obtain ⟨m, e, m1, m2, m3⟩ := program_memory h hF hi he
  rw [contents_at he]
  exact ⟨m, e, m1, m2, fun _ _ _ => trivial, fun l v hv => m3 v (List.mem_of_getElem? hv)⟩

/-- **C77** `clone_state` may be called, any number of times and on any of the estimators, while read-only calls are in flight that would return if made
alone.  Whatever the interleaving of single accesses: nothing goes out of bounds, nothing blocks, all calls return and all clones are made
after a number of accesses that does not depend on the interleaving; the calls proceed as if no clone were being made, so that all of C60
holds of them; and each clone compares equal to the estimator (if no parameter is NaN, cf. C40), has learned the same, and answers and learns
from all further calls as the estimator does, although it may have copied scratch memory in the middle of a prediction. -/
theorem C77_clone (h : ReadOnlyProgram a k ests calls) (hts : ∀ t ∈ ts, t < ests.length) :
    AlwaysCloned (Cloning.start scs ests calls ts) ∧
    ∀ n W, CloneInterleaving n (Cloning.start scs ests calls ts) W →
      (∃ p, Interleaving p (Program.start scs ests calls) W.prog) ∧
      ∀ j t m st, Cloned W j t m → ests[t]? = some st →
        ts[j]? = some t ∧ (NoNaN st.params → EstState.CppEq k (st.cloneWith m) st) ∧ SameLearned st (st.cloneWith m) ∧
        Indistinguishable a k st (st.cloneWith m) := by
  obtain ⟨cfg, hF⟩ := program_facts h
  have hmem := contents_mem (scs := scs) (ts := ts) h hF hts
  obtain ⟨costs, h0⟩ := clones_start (ests := ests) (calls := calls) (ts := ts) (Rs := contents ests cfg) fun t ht =>
    ⟨_, List.getElem?_eq_getElem (hts t ht), by rw [contents_at (List.getElem?_eq_getElem (hts t ht))], by
      rw [contents_at (List.getElem?_eq_getElem (hts t ht))]⟩
  refine ⟨clones_always hmem (C60_safe h).1 rfl h0, fun n W hi => ⟨?_, fun j t m st hc he => ?_⟩⟩
  · obtain ⟨n1, -, h1, -⟩ := h0.reach hmem rfl hi
    exact ⟨n1, h1⟩
  · obtain ⟨ht, hm⟩ := clones_made hmem rfl h0 hi hc
    rw [contents_at he] at hm
    obtain ⟨ss, hk, hv, hN, hs⟩ := hF t st he
    refine ⟨ht, fun hn => ?_, ⟨rfl, rfl, rfl⟩, ?_⟩
    · obtain ⟨c1, c2, c3, c4, c5, c6⟩ := C40_clone_equal (k := k) st hn
      refine ⟨c1, c2, c3, c4, c5, ?_⟩
      cases k
      · simp [Cache.cppEq, EstState.cloneWith, EstState.withScratch, EstState.clone, hm.no, hm.ns]
      · simp [Cache.cppEq, EstState.cloneWith, EstState.withScratch, EstState.clone, hm.no]
    · refine sims_indist hv hN hk hs (?_ : Sim a.lawful (cfg t) (st.withScratch m) ss) fun _ _ => rfl
      refine sim_withScratch hs hm.no hm.ns fun s hs => ?_
      obtain ⟨i, hi⟩ := List.mem_iff_getElem?.1 hs
      exact hm.Ss i s hi

theorem step_mem {W W' : Program} (hs : W.Step W') {t : Nat} (hc : ∀ c ∈ W.calls, c.target ≠ t) :
    W'.mems[t]? = W.mems[t]? ∧ ∀ c ∈ W'.calls, c.target ≠ t := by
  obtain ⟨i, c, m, code', m', h1, h2, h3, rfl⟩ := hs
  have hne := hc c (List.mem_of_getElem? h1)
  refine ⟨List.getElem?_set_ne hne, fun d hd => ?_⟩
  rcases List.mem_or_eq_of_mem_set hd with h | rfl
  · exact hc d h
  · exact hne

theorem interleaving_mem {n : Nat} {V W : Program} (hi : Interleaving n V W) {t : Nat} (hc : ∀ c ∈ V.calls, c.target ≠ t) :
    W.mems[t]? = V.mems[t]? ∧ ∀ c ∈ W.calls, c.target ≠ t := by
  induction hi with
  | refl => exact ⟨rfl, hc⟩
  | step _ hs ih =>
    obtain ⟨h1, h2⟩ := ih hc
    obtain ⟨h3, h4⟩ := step_mem hs h2
    exact ⟨h3.trans h1, h4⟩

/-- **C77** While no call is in flight on it, an estimator may be cloned by several threads at once, whatever goes on with other estimators: there is no
race, and the clone is the exact copy of C40. -/
theorem C77_exact (h : ReadOnlyProgram a k ests calls) (hts : ∀ t ∈ ts, t < ests.length) {n : Nat} {W : Cloning}
    (hi : CloneInterleaving n (Cloning.start scs ests calls ts) W) {j t : Nat} (hj : ts[j]? = some t) (hq : ∀ c, (t, c) ∉ calls) :
    ¬ CloneRace W j ∧ ∀ m st, Cloned W j t m → ests[t]? = some st → st.cloneWith m = st.clone := by
  obtain ⟨cfg, hF⟩ := program_facts h
  have hmem0 := contents_mem (scs := scs) (ts := ts) h hF hts
  have hcl : ∀ c ∈ (Program.start scs ests calls).calls, c.target ≠ t := by
    intro c hc e
    have h1 := List.mem_map_of_mem (f := InFlight.target) hc
    rw [start_targets] at h1
    obtain ⟨⟨t', c'⟩, h1, e'⟩ := List.mem_map.1 h1
    dsimp only at e'
    rw [e'.trans e] at h1
    exact hq _ h1
  obtain ⟨st, he⟩ : ∃ st, ests[t]? = some st := ⟨_, List.getElem?_eq_getElem (hts t (List.mem_of_getElem? hj))⟩
  let Rs : Nat → Content := fun u => if u = t then ⟨st.cache.clauseOutput.length, st.cache.labelSum.length,
    fun o v => st.cache.clauseOutput[o]? = some v, fun l v => st.cache.labelSum[l]? = some v⟩ else contents ests cfg u
  have eR : Rs t = ⟨st.cache.clauseOutput.length, st.cache.labelSum.length,
    fun o v => st.cache.clauseOutput[o]? = some v, fun l v => st.cache.labelSum[l]? = some v⟩ := if_pos rfl
  have hmem : ∀ n P, Interleaving n (Program.start scs ests calls) P → ∀ u ∈ ts, ∃ m, P.mems[u]? = some m ∧ (Rs u).Has m := by
    intro n P hP u hu
    by_cases e : u = t
    · subst e
      rw [eR]
      refine ⟨st.scratch, ?_, rfl, rfl, fun _ _ h => h, fun _ _ h => h⟩
      rw [(interleaving_mem hP hcl).1]
      simp [Program.start, he]
    · rw [show Rs u = contents ests cfg u from if_neg e]
      exact hmem0 n P hP u hu
  obtain ⟨costs, h0⟩ := clones_start (ests := ests) (calls := calls) (ts := ts) (Rs := Rs) fun u hu => by
    by_cases e : u = t
    · subst e
      rw [eR]
      exact ⟨st, he, rfl, rfl⟩
    · rw [show Rs u = contents ests cfg u from if_neg e]
      have he := List.getElem?_eq_getElem (hts u hu)
      rw [contents_at he]
      exact ⟨_, he, rfl, rfl⟩
  obtain ⟨n1, c1, h1, h2, h3⟩ := h0.reach hmem rfl hi
  refine ⟨?_, fun m st' hc he' => ?_⟩
  · rintro ⟨i, t', c, code, l, g1, g2, g3, -⟩
    obtain ⟨q, hq⟩ := h2.cost g2
    obtain ⟨e, -⟩ := h2.2 j t' code q g2 hq
    rw [hj] at e
    cases e
    exact (interleaving_mem h1 hcl).2 c (List.mem_of_getElem? g1) g3
  · rw [he] at he'
    cases he'
    obtain ⟨-, hm⟩ := clones_made hmem rfl h0 hi hc
    rw [eR] at hm
    have e1 : m.out = st.cache.clauseOutput := by
      refine List.ext_getElem? fun i => ?_
      have := hm.no
      dsimp only at this
      by_cases hi : i < m.out.length
      · rw [List.getElem?_eq_getElem hi]
        exact (hm.So i _ (List.getElem?_eq_getElem hi)).symm
      · rw [List.getElem?_eq_none (by omega), List.getElem?_eq_none (by omega)]
    have e2 : m.sums = st.cache.labelSum := by
      refine List.ext_getElem? fun i => ?_
      have := hm.ns
      dsimp only at this
      by_cases hi : i < m.sums.length
      · rw [List.getElem?_eq_getElem hi]
        exact (hm.Ss i _ (List.getElem?_eq_getElem hi)).symm
      · rw [List.getElem?_eq_none (by omega), List.getElem?_eq_none (by omega)]
    unfold EstState.cloneWith EstState.withScratch
    rw [e1, e2]
    rfl

theorem calls_interleave {n : Nat} {P P' : Program} (h : Interleaving n P P') (cl : List (Nat × CallCode Scratch)) : CloneInterleaving n ⟨P, cl⟩ ⟨P', cl⟩ := by
  induction h with
  | refl => exact .refl _
  | step _ hs ih => exact .step ih (.inl ⟨_, hs, rfl⟩)

/-- **C77** But in a C++ program no clone may be made of an estimator while a call with a sample, which is not rejected, is in flight on it: although both
are `const`, they race. -/
theorem C77_race {st : EstState a.backend env} (h : Reached a k st) (hN : StatesOk a st.params) {c : Call a.Sample k}
    (hc : c.Reads) (ht : WellTyped a c) (hx : c.samples ≠ []) {o : Out} (ha : Alone a st c o) (ho : Accepted o) :
    ∃ n W, CloneInterleaving n (Cloning.start scs [st] [(0, c)] [0]) W ∧ CloneRace W 0 := by
  obtain ⟨cfg, ss, hk, hv, -, hs⟩ := Reached.sim h hN
  obtain ⟨e, h1⟩ := alone_sched h hN ht ha inOrder
  have hp : ReadOnlyProgram a k [st] [(0, c)] := by
    refine ⟨fun st' hs => by rw [List.mem_singleton.1 hs]; exact ⟨h, hN⟩, fun t c' hc' => ?_⟩
    cases List.mem_singleton.1 hc'
    exact ⟨hc, ht, st, rfl, o, ha⟩
  obtain ⟨⟨total, -, hsafe⟩, -⟩ := C60_safe (scs := scs) hp
  obtain ⟨n, W, hi, ⟨v, r, h3⟩, -⟩ := heads_reach (fun n W hi => (hsafe n W hi).1) (heads_call (sc := scs 0) hv hk hs hc h1 ho hx) (.refl _) (j := 0) (t := 0) rfl
  have hlen : 0 < st.cache.clauseOutput.length := by
    obtain ⟨cfg, hF⟩ := program_facts hp
    obtain ⟨m, hm, hl, -⟩ := program_memory hp hF hi (t := 0) rfl
    refine Nat.pos_of_ne_zero fun e => (hsafe n W hi).1 ⟨_, List.mem_of_getElem? h3, .inl ⟨m, hm, _, rfl, fun p hp => ?_⟩⟩
    rw [Res.bind_eq_ok] at hp
    obtain ⟨l, hl', -⟩ := hp
    rw [wr_eq_ok] at hl'
    have := hl'.1
    omega
  refine ⟨n, ⟨W, _⟩, calls_interleave hi _, 0, 0, ⟨0, .storeOut 0 v r⟩, _, .out 0, h3, rfl, rfl, rfl, ?_⟩
  show nextAccess (cloneCode st.cache.clauseOutput.length _) = _
  obtain ⟨n, hn⟩ : ∃ n, st.cache.clauseOutput.length = n + 1 := ⟨_, (Nat.succ_pred_eq_of_pos hlen).symm⟩
  rw [hn]
  unfold cloneCode range
  rw [Nat.sub_zero, List.range'_succ]
  rfl

/-- **C77** States may be saved while read-only calls are in flight: at any moment, whatever the interleaving, `to_json_string` and `read_params` give what they
give of the estimator at rest, since they use nothing that these calls write. -/
theorem C77_save (h : ReadOnlyProgram a k ests calls) {n : Nat} {W : Program} (hi : Interleaving n (Program.start scs ests calls) W) {t : Nat}
    {st : EstState a.backend env} (he : ests[t]? = some st) (gdoc : GenDoc env) :
    ∃ m, W.mems[t]? = some m ∧ saveText a k gdoc (st.withScratch m) = saveText a k gdoc st ∧ (st.withScratch m).params = st.params := by
  obtain ⟨cfg, hF⟩ := program_facts h
  obtain ⟨m, e, -⟩ := program_memory h hF hi he
  exact ⟨m, e, rfl, rfl⟩

/-! ### Such programs -/

/-- Two clones of an estimator on which a call is in flight, one of an estimator at rest. -/
example : ReadOnlyProgram .classic .classifier [Toy.cc, Toy.cc] [(0, .predict1 [1, 0, 1])] ∧ (∀ t ∈ [0, 1, 0], t < [Toy.cc, Toy.cc].length) ∧
    [0, 1, 0][1]? = some 1 ∧ ∀ c, (1, c) ∉ [(0, (.predict1 [1, 0, 1] : Call ClassicSample .classifier))] := by
  refine ⟨⟨fun st hs => ?_, fun t c hc => ?_⟩, by decide, rfl, by simp⟩
  · have : st = Toy.cc := by simpa using hs
    subst this; exact ⟨Toy.cc_reached, Toy.cc_states⟩
  · cases List.mem_singleton.1 hc
    exact ⟨trivial, trivial, _, rfl, .label (.ok 1), Toy.alone_of (by decide +kernel)⟩

namespace Toy

/-- The program in which calls (`.inl`) and clones (`.inr`) act in turn. -/
def execC (W : Cloning) : List (Nat ⊕ Nat) → Option Cloning
  | [] => some W
  | .inl j :: js =>
    match exec W.prog [j] with
    | some P => execC ⟨P, W.clones⟩ js
    | none => none
  | .inr j :: js =>
    match W.clones[j]? with
    | none => none
    | some (t, code) =>
      match W.prog.mems[t]? with
      | none => none
      | some m =>
        match code.act m with
        | some (.ok (code', m')) => execC ⟨⟨W.prog.mems.set t m', W.prog.calls⟩, W.clones.set j (t, code')⟩ js
        | _ => none

theorem exec_step {W W' : Program} {j : Nat} (h : exec W [j] = some W') : W.Step W' := by
  unfold exec at h
  split at h
  · cases h
  · rename_i c hc
    split at h
    · cases h
    · rename_i m hm
      split at h
      · rename_i code m' ha
        cases h
        exact ⟨j, c, m, code, m', hc, hm, ha, rfl⟩
      · cases h

theorem execC_interleaving {V W W' : Cloning} {js : List (Nat ⊕ Nat)} {n : Nat} (hV : CloneInterleaving n V W) (h : execC W js = some W') :
    ∃ n, CloneInterleaving n V W' := by
  induction js generalizing W n with
  | nil => cases h; exact ⟨n, hV⟩
  | cons j js ih =>
    cases j with
    | inl j =>
      unfold execC at h
      split at h
      · rename_i P hP
        exact ih (hV.step (.inl ⟨P, exec_step hP, rfl⟩)) h
      · cases h
    | inr j =>
      unfold execC at h
      split at h
      · cases h
      · rename_i t code hc
        split at h
        · cases h
        · rename_i m hm
          split at h
          · rename_i code' m' ha
            exact ih (hV.step (.inr ⟨j, t, code, m, code', m', hc, hm, ha, rfl⟩)) h
          · cases h

/-- The scratch memory of clone `j`, once made. -/
def cloned (W : Cloning) (j : Nat) : Option Scratch :=
  match W.clones[j]? with
  | some (_, .ret m) => some m
  | _ => none

end Toy

/-- A clone made in the middle of a prediction: it has copied clause outputs from before and label sums from after it, which the estimator had together at no
moment. -/
example : ∃ n W, CloneInterleaving n (Cloning.start (B := Algo.classic.backend) (k := .classifier) (fun _ => inOrder) [Toy.cc] [(0, .predict1 [1, 1, 0])] [0]) W ∧
    ∃ t m, Cloned W 0 t m ∧ m.out = Toy.cc.cache.clauseOutput ∧ m.sums ≠ Toy.cc.cache.labelSum ∧ ∃ m', W.prog.mems = [m'] ∧ m.sums = m'.sums ∧ m.out ≠ m'.out := by
  have h : ((Toy.execC (Cloning.start (B := Algo.classic.backend) (k := .classifier) (fun _ => inOrder) [Toy.cc] [(0, .predict1 [1, 1, 0])] [0])
      (List.replicate 6 (.inr 0) ++ List.replicate 19 (.inl 0) ++ List.replicate 3 (.inr 0))).map fun W => (Toy.cloned W 0, W.prog.mems)) =
      some (some ⟨[false, true, false, false, false, false], [1, -1, 0]⟩, [⟨[true, false, false, true, false, false], [1, -1, 0]⟩]) := by
    decide +kernel
  rw [Option.map_eq_some_iff] at h
  obtain ⟨W, h1, h2⟩ := h
  obtain ⟨n, h3⟩ := Toy.execC_interleaving (.refl _) h1
  rw [Prod.mk.injEq] at h2
  obtain ⟨h2, h4⟩ := h2
  unfold Toy.cloned at h2
  split at h2
  · rename_i t m e
    cases h2
    refine ⟨n, W, h3, t, _, e, by decide +kernel, by decide +kernel, _, h4, rfl, by decide⟩
  · cases h2

end Tsetlini
