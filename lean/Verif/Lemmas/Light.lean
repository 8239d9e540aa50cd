import Verif.Lemmas.Same
/- Weights that are all 1: estimators without weights and estimators whose weights cannot grow. -/
namespace Tsetlini
open Res Spec

theorem Res.Rel.bind {R : α → β → Prop} {S : γ → δ → Prop} {x : Res α} {y : Res β} {f : α → Res γ} {g : β → Res δ}
    (h : x.Rel R y) (hf : ∀ a b, R a b → (f a).Rel S (g b)) : (x.bind f).Rel S (y.bind g) := by
  cases x <;> cases y <;> first | exact hf _ _ h | exact h | exact h.elim

theorem Res.Rel.same {x : Res α} : x.Rel Eq x := by
  cases x <;> first | rfl | trivial

theorem Res.Rel.bindSame {S : γ → δ → Prop} {x : Res α} {f : α → Res γ} {g : α → Res δ}
    (hf : ∀ a, (f a).Rel S (g a)) : (x.bind f).Rel S (x.bind g) := by
  cases x <;> first | exact hf _ | rfl | trivial

theorem Res.Rel.iter {R : σ → τ → Prop} {l : List ι} {f : ι → σ → Res σ} {g : ι → τ → Res τ} {s : σ} {t : τ} (h : R s t)
    (hf : ∀ i s t, R s t → (f i s).Rel R (g i t)) : (iter l f s).Rel R (iter l g t) := by
  induction l generalizing s t with
  | nil => exact h
  | cons i l ih => exact Res.Rel.bind (hf i s t h) fun a b hab => ih hab

/-- Weights that are all 1 (stored as 0) and will stay so. -/
def LightW (cfg : Cfg) (ws : List Nat) : Prop := (∀ w ∈ ws, w = 0) ∧ (cfg.maxWeight = 1 ∨ ws = [])

/-- A configuration under which weights cannot grow. -/
def Cfg.Light (cfg : Cfg) : Prop := cfg.weighted = false ∨ cfg.maxWeight = 1

/-- The configuration without the parameters that govern weights. -/
def Cfg.bare (c : Cfg) : Cfg := { c with weighted := false, maxWeight := 1 }

/-- Two abstract estimators that differ at most in weights that are all 1. -/
structure SameBut (cfg cfg' : Cfg) {env : Env} (s t : SState env) : Prop where
  shape : s.shape = t.shape
  clauses : s.clauses = t.clauses
  igen : s.igen = t.igen
  fgen : s.fgen = t.fgen
  left : LightW cfg s.weights
  right : LightW cfg' t.weights

theorem light_weight {ws : List Nat} (h : ∀ w ∈ ws, w = 0) (o : Nat) : weight ws o = 1 := by
  unfold weight
  rw [List.getD_eq_getElem?_getD]
  match e : ws[o]? with
  | none => rfl
  | some w => rw [h w (List.mem_of_getElem? e)]; rfl

theorem light_score {ws ws' : List Nat} (h : ∀ w ∈ ws, w = 0) (h' : ∀ w ∈ ws', w = 0) (out : Nat → Bool) (k : Nat) (T : Int) :
    score out ws k T = score out ws' k T := by
  funext l
  unfold score
  congr 2
  refine List.map_congr_left fun o _ => ?_
  unfold vote
  rw [light_weight h, light_weight h']

theorem light_response {ws ws' : List Nat} (h : ∀ w ∈ ws, w = 0) (h' : ∀ w ∈ ws', w = 0) (out : Nat → Bool) (n : Nat) (T : Int) :
    response out ws n T = response out ws' n T := by
  unfold response
  congr 2
  refine List.map_congr_left fun o _ => ?_
  rw [light_weight h, light_weight h']

theorem LightW.inc {cfg : Cfg} {ws : List Nat} (h : LightW cfg ws) (i : Nat) : LightW cfg (incW cfg.maxWeight ws i) := by
  obtain ⟨h0, h1⟩ := h
  rcases h1 with h1 | rfl
  · refine ⟨?_, .inl h1⟩
    unfold incW
    refine mem_modify h0 ?_
    rintro w rfl
    rw [h1, if_neg (by decide)]
  · exact ⟨by simp [incW], .inr (by simp [incW])⟩

theorem LightW.dec {cfg : Cfg} {ws : List Nat} (h : LightW cfg ws) (i : Nat) : LightW cfg (decW ws i) := by
  obtain ⟨h0, h1⟩ := h
  refine ⟨mem_modify h0 (by rintro w rfl; rfl), h1.imp id ?_⟩
  rintro rfl; simp [decW]

theorem LightW.resize {cfg : Cfg} (hc : cfg.Light) {ws : List Nat} (h : LightW cfg ws) (n : Nat) :
    LightW cfg (if cfg.weighted then resize ws n else ws) := by
  by_cases hw : cfg.weighted = true
  · rw [if_pos hw]
    refine ⟨fun w hm => ?_, .inl (hc.resolve_left (by rw [hw]; decide))⟩
    rcases mem_resize hm with hm | hm
    · exact h.1 w hm
    · exact hm
  · rw [if_neg hw]; exact h

section
variable {B : Backend} {L : Lawful B} {env : Env} {cfg cfg' : Cfg} {s t : SState env}

theorem bare_eq (h : cfg.bare = cfg'.bare) : cfg' = { cfg with weighted := cfg'.weighted, maxWeight := cfg'.maxWeight } := by
  cases cfg; cases cfg'
  simp only [Cfg.bare, Cfg.mk.injEq] at h ⊢
  simp [h]

theorem stepI_light (h : cfg.bare = cfg'.bare) {nf : Nat} {x : List Bool} {i : Nat} {out : Bool} (hs : SameBut cfg cfg' s t) :
    (stepI L env cfg nf x i out s).Rel (SameBut cfg cfg') (stepI L env cfg' nf x i out t) := by
  have e := bare_eq h
  have e1 : cfg'.s = cfg.s := by rw [e]
  have e2 : cfg'.states = cfg.states := by rw [e]
  have e3 : cfg'.boost = cfg.boost := by rw [e]
  unfold stepI
  rw [hs.clauses, hs.igen, e1, e2, e3]
  refine Res.Rel.bindSame fun c => ?_
  dsimp only
  split
  · refine Res.Rel.bindSame fun r => ?_
    exact ⟨hs.shape, rfl, rfl, hs.fgen, hs.left, hs.right⟩
  · refine Res.Rel.bindSame fun r => ?_
    exact ⟨hs.shape, rfl, rfl, hs.fgen, hs.left.inc i, hs.right.inc i⟩

theorem stepII_light {x : List Bool} {i : Nat} {out : Bool} (hs : SameBut cfg cfg' s t) :
    (stepII x i out s).Rel (SameBut cfg cfg') (stepII x i out t) := by
  unfold stepII
  rw [hs.clauses]
  refine Res.Rel.bindSame fun c => ?_
  split
  · exact ⟨hs.shape, rfl, hs.igen, hs.fgen, hs.left.dec i, hs.right.dec i⟩
  · exact hs

theorem trainS_light (h : cfg.bare = cfg'.bare) {nf : Nat} {x : List Bool} {fb : List Int} {out : Nat → Bool} {a b : Nat}
    (hs : SameBut cfg cfg' s t) :
    (trainS L env cfg nf x fb out a b s).Rel (SameBut cfg cfg') (trainS L env cfg' nf x fb out a b t) := by
  refine Res.Rel.iter hs fun i s t hs => Res.Rel.bindSame fun f => ?_
  split
  · exact stepI_light h hs
  · split
    · exact stepII_light hs
    · exact hs

theorem updateS_light (h : cfg.bare = cfg'.bare) {nf : Nat} {x : List Bool} {l o : Nat} (hs : SameBut cfg cfg' s t) :
    (updateS L env cfg nf x l o s).Rel (SameBut cfg cfg') (updateS L env cfg' nf x l o t) := by
  have e := bare_eq h
  have e1 : cfg'.k = cfg.k := by rw [e]; rfl
  have e2 : cfg'.T = cfg.T := by rw [e]
  unfold updateS
  dsimp only
  rw [e1, e2, ← hs.clauses, ← hs.fgen, light_score hs.right.1 hs.left.1]
  refine Res.Rel.bindSame fun r => ?_
  refine Res.Rel.bind (trainS_light h ⟨hs.shape, rfl, hs.igen, rfl, hs.left, hs.right⟩) fun a b hab => ?_
  exact trainS_light h hab

theorem epochS_light (h : cfg.bare = cfg'.bare) {labels nf : Nat} {X : List B.Sample} {y : List Int} (hs : SameBut cfg cfg' s t) :
    (epochS L env cfg labels nf X y s).Rel (SameBut cfg cfg') (epochS L env cfg' labels nf X y t) := by
  unfold epochS
  rw [hs.igen]
  refine Res.Rel.bindSame fun r => ?_
  refine Res.Rel.iter ⟨hs.shape, hs.clauses, rfl, hs.fgen, hs.left, hs.right⟩ fun i s t hs => ?_
  refine Res.Rel.bindSame fun x => Res.Rel.bindSame fun yi => Res.Rel.bindSame fun oi => ?_
  exact updateS_light h hs

theorem regUpdateS_light (h : cfg.bare = cfg'.bare) {nf : Nat} {x : List Bool} {y : Int} (hs : SameBut cfg cfg' s t) :
    (regUpdateS L env cfg nf x y s).Rel (SameBut cfg cfg') (regUpdateS L env cfg' nf x y t) := by
  have e := bare_eq h
  have e2 : cfg'.T = cfg.T := by rw [e]
  have e3 : cfg'.boxMuller = cfg.boxMuller := by rw [e]
  have e4 : cfg'.loss = cfg.loss := by rw [e]; rfl
  have e5 : cfg'.C1 = cfg.C1 := by rw [e]
  unfold regUpdateS
  dsimp only
  rw [e2, e3, e4, e5, ← hs.clauses, ← hs.igen, light_response hs.right.1 hs.left.1]
  refine Res.Rel.bindSame fun r => ?_
  refine Res.Rel.iter ⟨hs.shape, rfl, rfl, hs.fgen, hs.left, hs.right⟩ fun i s t hs => ?_
  rw [← hs.igen]
  have h' : SameBut cfg cfg' { s with igen := (env.next s.igen).2 } { t with igen := (env.next s.igen).2 } :=
    ⟨hs.shape, hs.clauses, rfl, hs.fgen, hs.left, hs.right⟩
  split
  · exact stepI_light h h'
  · split
    · exact stepII_light h'
    · exact h'

theorem regEpochS_light (h : cfg.bare = cfg'.bare) {nf : Nat} {X : List B.Sample} {y : List Int} (hs : SameBut cfg cfg' s t) :
    (regEpochS L env cfg nf X y s).Rel (SameBut cfg cfg') (regEpochS L env cfg' nf X y t) := by
  unfold regEpochS
  rw [hs.igen]
  refine Res.Rel.iter ⟨hs.shape, hs.clauses, rfl, hs.fgen, hs.left, hs.right⟩ fun i s t hs => ?_
  refine Res.Rel.bindSame fun x => Res.Rel.bindSame fun yi => ?_
  exact regUpdateS_light h hs

/-- Results of a training call. -/
def SameTrained (cfg cfg' : Cfg) {env : Env} (r r' : SState env × Status) : Prop := SameBut cfg cfg' r.1 r'.1 ∧ r.2 = r'.2

theorem initS_light (h : cfg.bare = cfg'.bare) (hl : cfg.Light) (hl' : cfg'.Light) {labels nf : Nat} (hs : SameBut cfg cfg' s t) :
    SameBut cfg cfg' (initS env cfg labels nf s.weights) (initS env cfg' labels nf t.weights) := by
  have e := bare_eq h
  have e1 : cfg'.k = cfg.k := by rw [e]; rfl
  have e2 : cfg'.seed = cfg.seed := by rw [e]
  unfold initS
  rw [e1, e2]
  exact ⟨rfl, rfl, rfl, rfl, hs.left.resize hl _, hs.right.resize hl' _⟩

theorem iter_light {l : List ι} {f g : ι → SState env → Res (SState env)} (hs : SameBut cfg cfg' s t)
    (hf : ∀ i s t, SameBut cfg cfg' s t → (f i s).Rel (SameBut cfg cfg') (g i t)) :
    ((iter l f s).bind fun ss => .ok (ss, Status.sOk)).Rel (SameTrained cfg cfg') ((iter l g t).bind fun ss => .ok (ss, Status.sOk)) :=
  Res.Rel.bind (Res.Rel.iter hs hf) fun _ _ h => ⟨h, rfl⟩

theorem fitS_light (h : cfg.bare = cfg'.bare) (hl : cfg.Light) (hl' : cfg'.Light) {X : List B.Sample} {y : List Int} {ml : Int} {ep : Nat}
    (hs : SameBut cfg cfg' s t) : (fitS L env cfg s X y ml ep).Rel (SameTrained cfg cfg') (fitS L env cfg' t X y ml ep) := by
  unfold fitS
  refine Res.Rel.bindSame fun sm => ?_
  split
  · exact ⟨hs, rfl⟩
  refine Res.Rel.bindSame fun sm => ?_
  split
  · exact ⟨hs, rfl⟩
  exact iter_light (initS_light h hl hl' hs) fun _ _ _ hs => epochS_light h hs

theorem fitRS_light (h : cfg.bare = cfg'.bare) (hl : cfg.Light) (hl' : cfg'.Light) {X : List B.Sample} {y : List Int} {ep : Nat}
    (hs : SameBut cfg cfg' s t) : (fitRS L env cfg s X y ep).Rel (SameTrained cfg cfg') (fitRS L env cfg' t X y ep) := by
  have e2 : cfg'.T = cfg.T := by rw [bare_eq h]
  unfold fitRS
  rw [e2]
  refine Res.Rel.bindSame fun sm => ?_
  split
  · exact ⟨hs, rfl⟩
  dsimp only
  split
  · exact ⟨hs, rfl⟩
  exact iter_light (initS_light h hl hl' hs) fun _ _ _ hs => regEpochS_light h hs

theorem partialFitS_light (h : cfg.bare = cfg'.bare) (hl : cfg.Light) (hl' : cfg'.Light) {X : List B.Sample} {y : List Int} {ml : Int} {ep : Nat}
    (hs : SameBut cfg cfg' s t) : (partialFitS L env cfg s X y ml ep).Rel (SameTrained cfg cfg') (partialFitS L env cfg' t X y ml ep) := by
  unfold partialFitS
  rw [← hs.shape]
  split
  · unfold refitS
    refine Res.Rel.bindSame fun sm => ?_
    split
    · exact ⟨hs, rfl⟩
    refine Res.Rel.bindSame fun sm => ?_
    split
    · exact ⟨hs, rfl⟩
    refine Res.Rel.bindSame fun sm => ?_
    split
    · exact ⟨hs, rfl⟩
    exact iter_light hs fun _ _ _ hs => epochS_light h hs
  · exact fitS_light h hl hl' hs

theorem partialFitRS_light (h : cfg.bare = cfg'.bare) (hl : cfg.Light) (hl' : cfg'.Light) {X : List B.Sample} {y : List Int} {ep : Nat}
    (hs : SameBut cfg cfg' s t) : (partialFitRS L env cfg s X y ep).Rel (SameTrained cfg cfg') (partialFitRS L env cfg' t X y ep) := by
  have e2 : cfg'.T = cfg.T := by rw [bare_eq h]
  unfold partialFitRS
  rw [← hs.shape]
  split
  · unfold refitRS
    rw [e2]
    refine Res.Rel.bindSame fun sm => ?_
    split
    · exact ⟨hs, rfl⟩
    refine Res.Rel.bindSame fun sm => ?_
    split
    · exact ⟨hs, rfl⟩
    dsimp only
    split
    · exact ⟨hs, rfl⟩
    exact iter_light hs fun _ _ _ hs => regEpochS_light h hs
  · exact fitRS_light h hl hl' hs

theorem scoresS_light (h : cfg.bare = cfg'.bare) (hs : SameBut cfg cfg' s t) (labels : Nat) (x : List Bool) :
    scoresS cfg' labels t x = scoresS cfg labels s x := by
  have e := bare_eq h
  have e1 : cfg'.k = cfg.k := by rw [e]; rfl
  have e2 : cfg'.T = cfg.T := by rw [e]
  unfold scoresS
  rw [e1, e2, hs.clauses, light_score hs.right.1 hs.left.1]

theorem responseS_light (h : cfg.bare = cfg'.bare) (hs : SameBut cfg cfg' s t) (x : List Bool) : responseS cfg' t x = responseS cfg s x := by
  have e := bare_eq h
  have e2 : cfg'.T = cfg.T := by rw [e]
  unfold responseS
  rw [e2, hs.clauses, light_response hs.right.1 hs.left.1]

/-- One abstract call. -/
theorem stepS_light (h : cfg.bare = cfg'.bare) (hl : cfg.Light) (hl' : cfg'.Light) {k : Kind} (c : Call B.Sample k) (hs : SameBut cfg cfg' s t) :
    (stepS L env cfg c s).Rel (fun r r' => SameBut cfg cfg' r.1 r'.1 ∧ r.2 = r'.2) (stepS L env cfg' c t) := by
  have tr : ∀ {x x' : Res (SState env × Status)}, x.Rel (SameTrained cfg cfg') x' →
      (x.bind fun r => .ok (r.1, Out.status r.2)).Rel (fun r r' => SameBut cfg cfg' r.1 r'.1 ∧ r.2 = r'.2)
        (x'.bind fun r => .ok (r.1, Out.status r.2)) := fun hx =>
    Res.Rel.bind hx fun a b hab => ⟨hab.1, by rw [hab.2]⟩
  have ro : ∀ {α : Type} {x x' : Res α} {f : α → Out}, x' = x →
      (x.bind fun r => .ok (s, f r)).Rel (fun r r' => SameBut cfg cfg' r.1 r'.1 ∧ r.2 = r'.2) (x'.bind fun r => .ok (t, f r)) := by
    rintro α x x' f rfl
    exact Res.Rel.bindSame fun a => ⟨hs, rfl⟩
  have ws : ∀ {α : Type} {chk : Res Status} {f : Nat → Nat → α}, withShape t chk f = withShape s chk f := by
    intro α chk f
    unfold withShape
    rw [hs.shape]
  unfold stepS
  cases c with
  | fit X y ml ep => exact tr (fitS_light h hl hl' hs)
  | partialFit X y ml ep => exact tr (partialFitS_light h hl hl' hs)
  | fitR X y ep => exact tr (fitRS_light h hl hl' hs)
  | partialFitR X y ep => exact tr (partialFitRS_light h hl hl' hs)
  | predict1 x => refine ro ?_; unfold predict1S; simp only [scoresS_light h hs]; rw [← hs.shape]; exact ws
  | predict X => refine ro ?_; unfold predictS; simp only [scoresS_light h hs]; rw [← hs.shape]; exact ws
  | decision1 x => refine ro ?_; unfold decision1S; simp only [scoresS_light h hs]; rw [← hs.shape]; exact ws
  | decision X => refine ro ?_; unfold decisionS; simp only [scoresS_light h hs]; rw [← hs.shape]; exact ws
  | predictR1 x => refine ro ?_; unfold predictR1S; simp only [responseS_light h hs]; rw [← hs.shape]; exact ws
  | predictR X => refine ro ?_; unfold predictRS; simp only [responseS_light h hs]; rw [← hs.shape]; exact ws
  | evaluate X y =>
    refine ro ?_
    unfold evaluateS errorsS
    simp only [scoresS_light h hs]
    rw [← hs.shape]

end
end Tsetlini
