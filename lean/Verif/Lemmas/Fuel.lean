import Verif.Model.Collide
import Verif.Lemmas.Image
/-! A loop that ended does not depend on the bound on the number of its rounds. -/
namespace Verif.Fuel
open Image Let Force RootCell Collide Near Tree

def Mono {β : Type} (f : ℕ → Option β) : Prop := ∀ n a, f n = some a → ∀ m, n ≤ m → f m = some a

theorem Mono.same {β : Type} {f : ℕ → Option β} (h : Mono f) {n m : ℕ} {a b : β} (hn : f n = some a) (hm : f m = some b) : a = b := by
  have h1 := h n a hn (max n m) (le_max_left _ _)
  rw [h m b hm (max n m) (le_max_right _ _)] at h1
  exact (Option.some.inj h1).symm

theorem imageShifts_mono (pa : Axes) (size : V3) (my target : Box) : Mono (imageShifts pa size my target) := by
  intro n a h m hm
  unfold imageShifts at h ⊢
  by_cases hp : pa.x = false ∧ pa.y = false ∧ pa.z = false
  · rw [if_pos hp] at h ⊢
    exact h
  · rw [if_neg hp] at h ⊢
    cases e : imageLoop pa size my target n 1 with
    | none => simp [e] at h
    | some l =>
      simp only [e] at h
      simp only [imageLoop_mono _ _ _ _ _ _ _ e m hm]
      exact h

theorem idLoop_mono (pa : Axes) (root : Box) (p : V3) : ∀ (n lev : ℕ) (a : Idx), idLoop pa root p n lev = some a → ∀ m, n ≤ m → idLoop pa root p m lev = some a := by
  intro n
  induction n with
  | zero => intro lev a h; simp [idLoop] at h
  | succ n ih =>
    intro lev a h m hm
    obtain ⟨k, rfl⟩ : ∃ k, m = k + 1 := ⟨m - 1, by omega⟩
    rw [idLoop] at h ⊢
    split at h
    · exact h
    · exact ih _ _ h k (by omega)

theorem imageId_mono (pa : Axes) (root : Box) (p : V3) : Mono (imageId pa root p) := by
  intro n a h m hm
  unfold imageId at h ⊢
  split_ifs at h ⊢
  · exact h
  · exact idLoop_mono _ _ _ _ _ _ h m hm

theorem shiftLoop_mono (out : Box) (v : V3) : ∀ (n : ℕ) (b : Box) (k a : ℕ), shiftLoop out v n b k = some a → ∀ m, n ≤ m → shiftLoop out v m b k = some a := by
  intro n
  induction n with
  | zero => intro b k a h; simp [shiftLoop] at h
  | succ n ih =>
    intro b k a h m hm
    obtain ⟨j, rfl⟩ : ∃ j, m = j + 1 := ⟨m - 1, by omega⟩
    rw [shiftLoop] at h ⊢
    split_ifs at h ⊢
    · exact ih _ _ _ h j (by omega)
    · exact h

theorem shiftMax_mono (p : Bool) (root out : Box) (v : V3) : Mono (shiftMax p root out v) := by
  intro n a h m hm
  unfold shiftMax at h ⊢
  cases p
  · exact h
  · simp only [if_true] at h ⊢
    unfold numShift at h ⊢
    cases e1 : shiftLoop out v n (root.shift v) 0 with
    | none => simp [e1] at h
    | some x =>
      cases e2 : shiftLoop out (-v) n (root.shift (-v)) 0 with
      | none => simp [e1, e2] at h
      | some y =>
        simp only [e1, e2] at h
        simp only [shiftLoop_mono _ _ _ _ _ _ e1 m hm, shiftLoop_mono _ _ _ _ _ _ e2 m hm]
        exact h

theorem rootCell_mono (pa : Axes) (root out : Box) : Mono (rootCell pa root out) := by
  intro n a h m hm
  unfold rootCell at h ⊢
  simp only at h ⊢
  cases e1 : shiftMax pa.x root out ⟨(root.high - root.low).x, 0, 0⟩ n with
  | none => simp only [e1, reduceCtorEq] at h
  | some x =>
    cases e2 : shiftMax pa.y root out ⟨0, (root.high - root.low).y, 0⟩ n with
    | none => simp only [e1, e2, reduceCtorEq] at h
    | some y =>
      cases e3 : shiftMax pa.z root out ⟨0, 0, (root.high - root.low).z⟩ n with
      | none => simp only [e1, e2, e3, reduceCtorEq] at h
      | some z =>
        simp only [e1, e2, e3] at h
        simp only [shiftMax_mono _ _ _ _ _ _ e1 m hm, shiftMax_mono _ _ _ _ _ _ e2 m hm, shiftMax_mono _ _ _ _ _ _ e3 m hm]
        exact h

section
variable {α : Type} (d : Dinfo)

theorem scatterTo_mono (T : MTree α) (my i : ℕ) : Mono (scatterTo d T my i) := by
  intro n a h m hm
  unfold scatterTo at h ⊢
  cases e : imageShifts d.pa d.size (T.mom 0).vout (d.dom i) n with
  | none => simp only [e, reduceCtorEq] at h
  | some S =>
    simp only [e] at h
    simp only [imageShifts_mono _ _ _ _ _ _ e m hm]
    exact h

theorem splitLoop_mono : ∀ (es : List (Ep α)) (old : Idx) (acc : List (Idx × List (Ep α))), Mono fun n => splitLoop d n es old acc := by
  intro es
  induction es with
  | nil => intro old acc n a h m hm; exact h
  | cons e es ih =>
    intro old acc n a h m hm
    simp only [splitLoop] at h ⊢
    cases e1 : imageId d.pa d.root e.pos n with
    | none => simp only [e1, reduceCtorEq] at h
    | some id =>
      simp only [e1] at h
      simp only [imageId_mono _ _ _ _ _ e1 m hm]
      cases e2 : addLast e (if old ≠ id then acc ++ [(id, [])] else acc) with
      | none => simp only [e2] at h; cases h
      | some acc' =>
        simp only [e2] at h ⊢
        exact ih _ _ n a h m hm

theorem doubleTo_mono (build : List (Ep α) → Option (MTree α)) (B : MTree α) (i : ℕ) (es : List (Ep α)) : Mono (doubleTo d build B i es) := by
  intro n a h m hm
  unfold doubleTo at h ⊢
  cases e : splitLoop d n es noImage [] with
  | none => simp only [e, reduceCtorEq] at h
  | some S =>
    simp only [e] at h
    simp only [splitLoop_mono d _ _ _ _ _ e m hm]
    exact h

theorem recv1_mono (T : ℕ → MTree α) (b a : ℕ) : Mono (recv1 d T b a) := by
  intro n x h m hm
  unfold recv1 at h ⊢
  cases e : scatterTo d (T a) a b n with
  | none => simp only [e, reduceCtorEq] at h
  | some S =>
    simp only [e] at h
    simp only [scatterTo_mono d _ _ _ _ _ e m hm]
    exact h

theorem table_mono (build : ℕ → List (Ep α) → Option (MTree α)) (T : ℕ → MTree α) (a b : ℕ) : Mono (table d build T a b) := by
  intro n x h m hm
  unfold table at h ⊢
  cases e1 : scatterTo d (T a) a b n with
  | none => simp only [e1, reduceCtorEq] at h
  | some S =>
    cases e2 : recv1 d T a b n with
    | none => simp only [e1, e2, reduceCtorEq] at h
    | some es =>
      simp only [e1, e2] at h
      cases e3 : doubleTo d (build a) (T a) b es n with
      | none => simp only [e3, reduceCtorEq] at h
      | some im =>
        simp only [e3] at h
        simp only [scatterTo_mono d _ _ _ _ _ e1 m hm, recv1_mono d _ _ _ _ _ e2 m hm, doubleTo_mono d _ _ _ _ _ _ e3 m hm]
        exact h

theorem recv_mono (build : ℕ → List (Ep α) → Option (MTree α)) (T : ℕ → MTree α) (b a : ℕ) : Mono (recv d build T b a) := by
  intro n x h m hm
  unfold recv at h ⊢
  cases e : table d build T a b n with
  | none => simp only [e, reduceCtorEq] at h
  | some S =>
    simp only [e] at h
    simp only [table_mono d _ _ _ _ _ _ e m hm]
    exact h

theorem recvFrom_mono (build : ℕ → List (Ep α) → Option (MTree α)) (T : ℕ → MTree α) (b : ℕ) (l : List ℕ) : Mono fun n => recvFrom d build T b n l := by
  induction l with
  | nil => intro n x h m hm; exact h
  | cons a as ih =>
    intro n x h m hm
    simp only [recvFrom] at h ⊢
    cases e1 : recv d build T b a n with
    | none => simp only [e1, reduceCtorEq] at h
    | some S =>
      cases e2 : recvFrom d build T b n as with
      | none => simp only [e1, e2, reduceCtorEq] at h
      | some es =>
        simp only [e1, e2] at h
        simp only [recv_mono d _ _ _ _ _ _ e1 m hm, ih _ _ e2 m hm]
        exact h

theorem calcForceAll_mono {R O : Type} (c : Force.Config) (P : ℕ → List (Ep α)) (X : ℕ → RankExec α) (ftr : List (Ep α) → List (Ep α) → List R × List O) (b : ℕ) :
    Mono (calcForceAll c d P X ftr b) := by
  intro n x h m hm
  unfold calcForceAll at h ⊢
  cases e1 : setRootCell c.big d.pa d.root d.n (fun r => (X r).chunks) n with
  | none => simp only [e1, reduceCtorEq] at h
  | some f =>
    have e1' : setRootCell c.big d.pa d.root d.n (fun r => (X r).chunks) m = some f := rootCell_mono _ _ _ _ _ e1 m hm
    simp only [e1] at h
    simp only [e1']
    cases e2 : forRanks (fun r => localTree f c.big c.leaf c.nt ((X r).sortLoc (P r).length) (X r).treeLoc (P r)) d.n with
    | none => simp only [e2, reduceCtorEq] at h
    | some Ls =>
      simp only [e2] at h
      simp only []
      cases e3 : Ls[b]? with
      | none => simp only [e3, reduceCtorEq] at h
      | some L =>
        cases e4 : exchange d (fun r es => treeA f c.big (X r).srt ((X r).treeSnd es) es) (fun r => ((Ls[r]?).map Prod.snd).getD noTree) b n with
        | none => simp only [e3, e4, reduceCtorEq] at h
        | some rs =>
          have e4' : exchange d (fun r es => treeA f c.big (X r).srt ((X r).treeSnd es) es) (fun r => ((Ls[r]?).map Prod.snd).getD noTree) b m = some rs :=
            recvFrom_mono d _ _ _ _ _ _ e4 m hm
          simp only [e3, e4] at h
          simp only [e4']
          exact h

theorem collectPairCollision_mono (F : Force.Config) (S : ℕ → List Sylinder) (X : ℕ → Force.RankExec EP) (thr : ℕ → ℕ) (b : ℕ) (pool : Collector.Pool) :
    Mono fun n => collectPairCollision F d S X thr b n pool := by
  intro n x h m hm
  simp only [collectPairCollision] at h ⊢
  cases e : calcForceAll F d (fun r => (S r).map toEp) X (fun ei ej => (ei.map fun _ => (), [(ei.map ofEp, ej.map ofEp)])) b n with
  | none => simp only [e, reduceCtorEq] at h
  | some S =>
    simp only [e] at h
    simp only [calcForceAll_mono d _ _ _ _ _ _ _ e m hm]
    exact h

end

end Verif.Fuel
