import Verif.Lemmas.Mobility
namespace Verif.Mobility
open Verif.V3 Verif.Spec.Mobility

/-- Restriction to the plane if the flag is set. -/
def maskIf (mono : Bool) (x : V3 × V3) : V3 × V3 := if mono then mask1 x else x

theorem maskIf_flat6 (mono : Bool) (xs : List (V3 × V3)) (n : ℕ) (h : xs.length = n) :
    (if mono then maskMono n (flat6 xs) else flat6 xs) = flat6 (xs.map (maskIf mono)) := by
  subst h
  cases mono with
  | true => exact maskMono_flat6 xs
  | false =>
    have : maskIf false = id := by funext x; rfl
    rw [this, List.map_id]; rfl

/-- Non-Brownian velocities: from forces and prescribed. -/
noncomputable def partVel (mono : Bool) (n : ℕ) (F : Option (List (V3 × V3))) (mf : List (V3 × V3)) (P : Option (List (V3 × V3))) : List (V3 × V3) :=
  let v := match F with
    | none => List.replicate n (0, 0)
    | some _ => mf.map (maskIf mono)
  match P with
  | none => v
  | some w => List.zipWith (· + ·) v (w.map (maskIf mono))

noncomputable def totalVel (mono : Bool) (v : List (V3 × V3)) (B : Option (List (V3 × V3))) : List (V3 × V3) :=
  match B with
  | none => v
  | some w => List.zipWith (· + ·) v (w.map (maskIf mono))

def putForce (F : Option (List (V3 × V3))) (bodies : List Sylinder) : List Sylinder :=
  match F with
  | none => bodies
  | some f => List.zipWith (fun s x => { s with forceNonB := x.1, torqueNonB := x.2 }) bodies f

theorem partVel_length (mono : Bool) (n : ℕ) (F : Option (List (V3 × V3))) (mf : List (V3 × V3)) (P : Option (List (V3 × V3)))
    (hm : mf.length = n) (hP : ∀ p, P = some p → p.length = n) : (partVel mono n F mf P).length = n := by
  unfold partVel
  cases F <;> cases P <;> simp_all

theorem forceStage_eq (mono : Bool) (mob : List ℝ → Option (List ℝ)) (bodies : List Sylinder) (F : Option (List (V3 × V3)))
    (hF : ∀ f, F = some f → f.length = bodies.length) (mf : List (V3 × V3)) (hml : mf.length = bodies.length)
    (hmob : ∀ f, F = some f → mob (flat6 f) = some (flat6 mf)) :
    forceStage mono mob (F.map flat6) bodies = some (flat6 (partVel mono bodies.length F mf none), putForce F bodies) := by
  cases F with
  | none => simp only [Option.map_none, forceStage, partVel, putForce, zero_flat6]
  | some f =>
    simp only [Option.map_some, forceStage, hmob f rfl, partVel, putForce, Option.bind_some, maskIf_flat6 mono mf _ hml]
    rw [store_flat6 _ f bodies (hF f rfl)]
    rfl

theorem addStage_eq (mono : Bool) (n : ℕ) (w : Option (List (V3 × V3))) (v : List (V3 × V3)) (hv : v.length = n)
    (hw : ∀ f, w = some f → f.length = n) : addStage mono n (w.map flat6) (flat6 v) = some (flat6 (totalVel mono v w)) := by
  cases w with
  | none => rfl
  | some w =>
    simp only [Option.map_some, addStage, totalVel]
    rw [maskIf_flat6 mono w _ (hw w rfl), update1_flat6 _ _ (by rw [hv, List.length_map, hw w rfl])]

theorem nonCon_eq (mono : Bool) (mob : List ℝ → Option (List ℝ)) (bodies : List Sylinder) (F P B : Option (List (V3 × V3)))
    (hF : ∀ f, F = some f → f.length = bodies.length) (hP : ∀ f, P = some f → f.length = bodies.length)
    (hB : ∀ f, B = some f → f.length = bodies.length) (mf : List (V3 × V3)) (hml : mf.length = bodies.length)
    (hmob : ∀ f, F = some f → mob (flat6 f) = some (flat6 mf)) :
    calcVelocityNonCon mono mob (F.map flat6) (P.map flat6) (B.map flat6) bodies =
      some (flat6 (totalVel mono (partVel mono bodies.length F mf P) B),
        List.zipWith (fun s x => { s with velNonB := x.1, omegaNonB := x.2 }) (putForce F bodies) (partVel mono bodies.length F mf P)) := by
  have hpl := partVel_length mono bodies.length F mf P hml hP
  have hfl : (putForce F bodies).length = bodies.length := by
    unfold putForce
    cases F with
    | none => rfl
    | some f => simp [hF f rfl]
  have e : totalVel mono (partVel mono bodies.length F mf none) P = partVel mono bodies.length F mf P := by
    cases P <;> rfl
  unfold calcVelocityNonCon
  rw [forceStage_eq mono mob bodies F hF mf hml hmob]
  simp only [Option.bind_some]
  rw [addStage_eq mono _ P _ (partVel_length mono _ F mf none hml (by simp)) hP, e]
  simp only [Option.bind_some]
  rw [store_flat6 _ _ _ (by rw [hpl, hfl])]
  simp only [Option.bind_some]
  rw [addStage_eq mono _ B _ hpl hB]
  rfl

theorem save_eq (bodies : List Sylinder) (fu vu fb vb : List (V3 × V3)) (h1 : fu.length = bodies.length)
    (h2 : vu.length = bodies.length) (h3 : fb.length = bodies.length) (h4 : vb.length = bodies.length) :
    ∃ bs, saveForceVelocityConstraints ⟨flat6 fu, flat6 vu, flat6 fb, flat6 vb⟩ bodies = some bs ∧ bs.length = bodies.length ∧
      ∀ (i : ℕ) (s : Sylinder) (a b c d : V3 × V3), bodies[i]? = some s → fu[i]? = some a → vu[i]? = some b → fb[i]? = some c → vb[i]? = some d →
        bs[i]? = some { s with velCol := b.1, omegaCol := b.2, velBi := d.1, omegaBi := d.2, forceCol := a.1, torqueCol := a.2,
                               forceBi := c.1, torqueBi := c.2 } := by
  unfold saveForceVelocityConstraints
  rw [if_pos (by simp only [flat6_length, h2, h4]; omega), store_flat6 _ _ _ h2]
  simp only [Option.bind_some]
  rw [store_flat6 _ _ _ (by simp [h2, h4])]
  simp only [Option.bind_some]
  rw [store_flat6 _ _ _ (by simp [h2, h4, h1])]
  simp only [Option.bind_some]
  rw [store_flat6 _ _ _ (by simp [h2, h4, h1, h3])]
  refine ⟨_, rfl, by simp [h1, h2, h3, h4], ?_⟩
  intro i s a b c d hs ha hb hc hd
  simp [List.getElem?_zipWith, hs, ha, hb, hc, hd]

/-- Only the Brownian velocities change. -/
theorem brownBody_frame (mu dt kBT : ℝ) (W : Draws) (s s1 : Sylinder) (h : brownBody mu dt kBT W s = some s1) :
    s1 = { s with velBrown := s1.velBrown, omegaBrown := s1.omegaBrown } := by
  unfold brownBody at h
  split at h
  · cases h
  · simp only [Option.map_eq_some_iff] at h
    obtain ⟨a, -, rfl⟩ := h
    rfl

theorem brownBody_exists (mu dt kBT : ℝ) (hm : 0 < mu) (hdt : dt ≠ 0) (W : Draws) (s : Sylinder) (hv : Valid s) :
    ∃ s1, brownBody mu dt kBT W s = some s1 := by
  unfold brownBody
  rw [if_neg hdt]
  cases him : s.isImmovable with
  | true => simp [dragInv, him]
  | false =>
    obtain ⟨p, e, r, -, -, -, -, h⟩ := dragInv_pos s hv.radius hv.length mu hm him
    rw [h]; simp

/-- Non-Brownian velocity of one body. -/
noncomputable def nbOf (mono : Bool) (f p : Option (V3 × V3)) (m : V3 × V3) : V3 × V3 :=
  (match f with | none => (0, 0) | some _ => maskIf mono m) + (match p with | none => (0, 0) | some x => maskIf mono x)

/-- What one body gets in a step. -/
structure StepBody (cfg : Cfg) (mu : ℝ) (W : Draws) (s : Sylinder) (f p : Option (V3 × V3)) (v fu vu fb vb : V3 × V3)
    (t u : Sylinder) : Prop where
  ex : ∃ (s1 : Sylinder) (mf nb : V3 × V3), (cfg.KBT > 0 → brownBody mu cfg.dt cfg.KBT W s = some s1) ∧ (¬ cfg.KBT > 0 → s1 = s) ∧
    (∀ x, f = some x → MobOf mu s x mf) ∧
    nb = nbOf cfg.monolayer f p mf ∧
    v = nb + (if cfg.KBT > 0 then maskIf cfg.monolayer (s1.velBrown, s1.omegaBrown) else (0, 0)) ∧
    t.vel = nb.1 + s1.velBrown + vu.1 + vb.1 ∧ t.omega = nb.2 + s1.omegaBrown + vu.2 + vb.2
  force : ∀ x, f = some x → t.force = x.1 + fu.1 + fb.1 ∧ t.torque = x.2 + fu.2 + fb.2
  force0 : f = none → t.force = s.forceNonB + fu.1 + fb.1 ∧ t.torque = s.torqueNonB + fu.2 + fb.2
  pos : t.pos = s.pos
  orientation : t.orientation = s.orientation
  same : SameBody t s
  index : t.globalIndex = s.globalIndex
  saved : (t.forceCol, t.torqueCol) = fu ∧ (t.forceBi, t.torqueBi) = fb
  moved : u = if cfg.sylinderFixed then t else t.stepEuler cfg.dt

theorem zipWith_zero (vs : List (V3 × V3)) (n : ℕ) (h : vs.length = n) : List.zipWith (· + ·) (List.replicate n ((0, 0) : V3 × V3)) vs = vs := by
  subst h
  induction vs with
  | nil => rfl
  | cons v vs ih =>
    rw [List.length_cons, List.replicate_succ, List.zipWith_cons_cons, ih]
    congr 1
    apply Prod.ext <;> ext <;> simp

theorem partVel_get (mono : Bool) (n : ℕ) (F : Option (List (V3 × V3))) (mf : List (V3 × V3)) (P : Option (List (V3 × V3)))
    (i : ℕ) (hi : i < n) (m : V3 × V3) (hm : mf[i]? = some m) (hF : ∀ p, F = some p → p.length = n)
    (hP : ∀ p, P = some p → p.length = n) :
    (partVel mono n F mf P)[i]? = some (nbOf mono (F.bind (·[i]?)) (P.bind (·[i]?)) m) := by
  unfold partVel nbOf
  have z : ∀ x : V3 × V3, x + (0, 0) = x := fun x => by apply Prod.ext <;> ext <;> simp
  cases F with
  | none =>
    cases P with
    | none => simp [hi, z]
    | some w =>
      have : w[i]? = some (w[i]'(by rw [hP w rfl]; exact hi)) := List.getElem?_eq_getElem _
      simp [List.getElem?_zipWith, hi, this]
  | some f =>
    have hf : f[i]? = some (f[i]'(by rw [hF f rfl]; exact hi)) := List.getElem?_eq_getElem _
    cases P with
    | none => simp [hm, z, hf]
    | some w =>
      have : w[i]? = some (w[i]'(by rw [hP w rfl]; exact hi)) := List.getElem?_eq_getElem _
      simp [List.getElem?_zipWith, hm, this, hf]

theorem runStep_spec (cfg : Cfg) (hmu : 0 < cfg.viscosity) (hdt : cfg.dt ≠ 0) (F P : Option (List (V3 × V3)))
    (solver : Csr → List ℝ → Option SolverOut) (bodies : List (Draws × Sylinder)) (hv : ∀ x ∈ bodies, Valid x.2)
    (hF : ∀ f, F = some f → f.length = bodies.length) (hP : ∀ f, P = some f → f.length = bodies.length)
    (hs : ∀ m v, calcMobMatrix cfg.viscosity (bodies.map Prod.snd) = some m → v.length = bodies.length →
      ∃ fu vu fb vb, solver m (flat6 v) = some ⟨flat6 fu, flat6 vu, flat6 fb, flat6 vb⟩ ∧
      fu.length = bodies.length ∧ vu.length = bodies.length ∧ fb.length = bodies.length ∧ vb.length = bodies.length) :
    ∃ m v fu vu fb vb out, calcMobMatrix cfg.viscosity (bodies.map Prod.snd) = some m ∧
      runStep cfg (F.map flat6) (P.map flat6) solver bodies = some out ∧ out.velNonCon = flat6 v ∧ v.length = bodies.length ∧
      solver m (flat6 v) = some ⟨flat6 fu, flat6 vu, flat6 fb, flat6 vb⟩ ∧
      fu.length = bodies.length ∧ vu.length = bodies.length ∧ fb.length = bodies.length ∧ vb.length = bodies.length ∧
      out.summed.length = bodies.length ∧ out.moved.length = bodies.length ∧
      ∀ (i : ℕ) (W : Draws) (s : Sylinder), bodies[i]? = some (W, s) → ∃ vi fui vui fbi vbi t u, v[i]? = some vi ∧ fu[i]? = some fui ∧
        vu[i]? = some vui ∧ fb[i]? = some fbi ∧ vb[i]? = some vbi ∧ out.summed[i]? = some t ∧ out.moved[i]? = some u ∧
        StepBody cfg cfg.viscosity W s (F.bind (·[i]?)) (P.bind (·[i]?)) vi fui vui fbi vbi t u := by
  set n := bodies.length with hn
  obtain ⟨m, hm, hap⟩ := mob_apply cfg.viscosity hmu (bodies.map Prod.snd) (by
    intro s hs'
    obtain ⟨x, hx, rfl⟩ := List.mem_map.1 hs'
    exact hv x hx)
  -- Brownian part
  have hbr : ∃ (bs : List Sylinder) (B : Option (List (V3 × V3))), bs.length = n ∧ (∀ b, B = some b → b.length = n) ∧
      (if cfg.KBT > 0 then (calcVelocityBrown cfg.viscosity cfg.dt cfg.KBT bodies).map fun r => (r.1, some r.2)
        else some (bodies.map Prod.snd, none)) = some (bs, B.map flat6) ∧
      ∀ (i : ℕ) (W : Draws) (s : Sylinder), bodies[i]? = some (W, s) → ∃ s1, bs[i]? = some s1 ∧
        (cfg.KBT > 0 → brownBody cfg.viscosity cfg.dt cfg.KBT W s = some s1) ∧ (¬ cfg.KBT > 0 → s1 = s) ∧
        (match B with
          | none => ¬ cfg.KBT > 0
          | some b => cfg.KBT > 0 ∧ b[i]? = some (s1.velBrown, s1.omegaBrown)) := by
    by_cases hk : cfg.KBT > 0
    · obtain ⟨bs, hbs, hbf⟩ := Comm.mapM_exists (fun b : Draws × Sylinder => brownBody cfg.viscosity cfg.dt cfg.KBT b.1 b.2)
        (fun b s1 => brownBody cfg.viscosity cfg.dt cfg.KBT b.1 b.2 = some s1) bodies (fun b hb => by
          obtain ⟨s1, h⟩ := brownBody_exists cfg.viscosity cfg.dt cfg.KBT hmu hdt b.1 b.2 (hv b hb)
          exact ⟨s1, h, h⟩)
      have hbl := mapM_length _ _ _ hbs
      refine ⟨bs, some (bs.map fun s => (s.velBrown, s.omegaBrown)), hbl, ?_, ?_, ?_⟩
      · rintro b ⟨⟩; simp [hbl, hn]
      · rw [if_pos hk]
        unfold calcVelocityBrown
        rw [hbs]
        simp [flat6, List.flatMap_map]
      · intro i W s hi
        have hlt : i < bs.length := by rw [hbl]; exact (List.getElem?_eq_some_iff.1 hi).1
        refine ⟨bs[i], List.getElem?_eq_getElem hlt, fun _ => ?_, fun h => absurd hk h, hk, by simp [hlt]⟩
        exact forall₂_of_getElem hbf i _ _ hi (List.getElem?_eq_getElem hlt)
    · refine ⟨bodies.map Prod.snd, none, by simp [hn], by simp, by rw [if_neg hk]; rfl, ?_⟩
      intro i W s hi
      exact ⟨s, by simp [hi], fun h => absurd h hk, fun _ => rfl, hk⟩
  obtain ⟨bs, B, hbl, hB, hbe, hbi⟩ := hbr
  -- mobility times force
  have hmf : ∃ mf : List (V3 × V3), mf.length = n ∧ (∀ f, F = some f → m.apply (flat6 f) = some (flat6 mf) ∧
      ∀ (i : ℕ) (s : Sylinder) (x y : V3 × V3), (bodies.map Prod.snd)[i]? = some s → f[i]? = some x → mf[i]? = some y → MobOf cfg.viscosity s x y) := by
    cases F with
    | none => exact ⟨List.replicate n (0, 0), by simp, by simp⟩
    | some f =>
      obtain ⟨ys, h1, h2, h3⟩ := hap f (by rw [hF f rfl]; simp [hn])
      refine ⟨ys, by rw [h1]; simp [hn], ?_⟩
      rintro f' ⟨⟩
      exact ⟨h2, h3⟩
  obtain ⟨mf, hmfl, hmf⟩ := hmf
  have hnc := nonCon_eq cfg.monolayer m.apply bs F P B (fun f h => by rw [hF f h, hbl]) (fun f h => by rw [hP f h, hbl])
    (fun f h => by rw [hB f h, hbl]) mf (by rw [hmfl, hbl]) (fun f h => (hmf f h).1)
  rw [hbl] at hnc
  have hpl := partVel_length cfg.monolayer n F mf P hmfl hP
  set v : List (V3 × V3) := totalVel cfg.monolayer (partVel cfg.monolayer n F mf P) B with hvd
  have hvl : v.length = n := by
    rw [hvd]
    unfold totalVel
    cases B with
    | none => exact hpl
    | some b => simp [hpl, hB b rfl]
  obtain ⟨fu, vu, fb, vb, hso, l1, l2, l3, l4⟩ := hs m v hm hvl
  set bs2 := List.zipWith (fun s x => { s with velNonB := x.1, omegaNonB := x.2 }) (putForce F bs) (partVel cfg.monolayer n F mf P) with hbs2
  have hb2l : bs2.length = n := by
    rw [hbs2, List.length_zipWith, hpl]
    have : (putForce F bs).length = n := by
      unfold putForce
      cases F with
      | none => exact hbl
      | some f => simp [hF f rfl, hbl]
    omega
  obtain ⟨bs3, hsave, hb3l, hb3⟩ := save_eq bs2 fu vu fb vb (by omega) (by omega) (by omega) (by omega)
  refine ⟨m, v, fu, vu, fb, vb, (⟨flat6 v, bs3.map sumBody,
      if cfg.sylinderFixed then bs3.map sumBody else (bs3.map sumBody).map (fun s => s.stepEuler cfg.dt)⟩ : StepOut), hm, ?_, rfl, hvl, hso, l1, l2, l3, l4, ?_, ?_, ?_⟩
  · unfold runStep beforeSolve
    rw [hm]
    simp only [Option.bind_some]
    rw [hbe]
    simp only [Option.bind_some]
    rw [hnc]
    simp only [Option.map_some, Option.bind_some]
    rw [hso]
    simp only [Option.bind_some]
    unfold afterSolve
    rw [hsave]
    rfl
  · simp [hb3l, hb2l]
  · cases cfg.sylinderFixed <;> simp [hb3l, hb2l]
  · intro i W s hi
    have hin : i < n := (List.getElem?_eq_some_iff.1 hi).1
    obtain ⟨s1, hs1, hk1, hk2, hBm⟩ := hbi i W s hi
    obtain ⟨mi, hmfi⟩ : ∃ mi, mf[i]? = some mi := ⟨_, List.getElem?_eq_getElem (by omega)⟩
    have hpv := partVel_get cfg.monolayer n F mf P i hin _ hmfi hF hP
    set nb : V3 × V3 := nbOf cfg.monolayer (F.bind (·[i]?)) (P.bind (·[i]?)) mi with hnb
    have hvi : v[i]? = some (nb + (if cfg.KBT > 0 then maskIf cfg.monolayer (s1.velBrown, s1.omegaBrown) else (0, 0))) := by
      rw [hvd]
      unfold totalVel
      cases B with
      | none =>
        simp only at hBm ⊢
        rw [hpv, if_neg hBm]
        congr 1
        apply Prod.ext <;> ext <;> simp
      | some b =>
        simp only at hBm ⊢
        rw [List.getElem?_zipWith, hpv, List.getElem?_map, hBm.2, if_pos hBm.1]
        rfl
    have g1 : fu[i]? = some (fu[i]'(by omega)) := List.getElem?_eq_getElem _
    have g2 : vu[i]? = some (vu[i]'(by omega)) := List.getElem?_eq_getElem _
    have g3 : fb[i]? = some (fb[i]'(by omega)) := List.getElem?_eq_getElem _
    have g4 : vb[i]? = some (vb[i]'(by omega)) := List.getElem?_eq_getElem _
    have hpf : ∃ s2, (putForce F bs)[i]? = some s2 ∧ s2 = { s1 with forceNonB := s2.forceNonB, torqueNonB := s2.torqueNonB } ∧
        (∀ x, F.bind (·[i]?) = some x → s2.forceNonB = x.1 ∧ s2.torqueNonB = x.2) ∧
        (F.bind (·[i]?) = none → s2.forceNonB = s1.forceNonB ∧ s2.torqueNonB = s1.torqueNonB) := by
      cases hFc : F with
      | none => exact ⟨s1, hs1, rfl, by simp, fun _ => ⟨rfl, rfl⟩⟩
      | some f =>
        have : f[i]? = some (f[i]'(by rw [hF f hFc]; exact hin)) := List.getElem?_eq_getElem _
        refine ⟨{ s1 with forceNonB := (f[i]'(by rw [hF f hFc]; exact hin)).1, torqueNonB := (f[i]'(by rw [hF f hFc]; exact hin)).2 }, ?_, rfl, ?_, ?_⟩
        · simp [putForce, List.getElem?_zipWith, hs1, this]
        · intro x hx
          simp only [Option.bind_some, this, Option.some.injEq] at hx
          subst hx
          exact ⟨rfl, rfl⟩
        · intro hx
          simp [this] at hx
    obtain ⟨s2, hp2, hs2, hf2, hf20⟩ := hpf
    have hb2i : bs2[i]? = some { s2 with velNonB := nb.1, omegaNonB := nb.2 } := by
      rw [hbs2, List.getElem?_zipWith, hp2, hpv]
    have hb3i := hb3 i _ _ _ _ _ hb2i g1 g2 g3 g4
    have hs1f : s1 = { s with velBrown := s1.velBrown, omegaBrown := s1.omegaBrown } := by
      by_cases hk : cfg.KBT > 0
      · exact brownBody_frame _ _ _ _ _ _ (hk1 hk)
      · rw [hk2 hk]
    obtain ⟨t3, ht3, hb3i⟩ : ∃ t3, t3 = _ ∧ bs3[i]? = some t3 := ⟨_, rfl, hb3i⟩
    refine ⟨_, _, _, _, _, sumBody t3, if cfg.sylinderFixed then sumBody t3 else (sumBody t3).stepEuler cfg.dt,
      hvi, g1, g2, g3, g4, by rw [List.getElem?_map, hb3i]; rfl, ?_, ?_⟩
    rotate_left
    · subst ht3
      constructor
      · refine ⟨s1, mi, nb, hk1, hk2, ?_, hnb, rfl, ?_, ?_⟩
        · intro x hx
          cases hFc : F with
          | none => rw [hFc] at hx; simp at hx
          | some f =>
            rw [hFc] at hx
            exact (hmf f hFc).2 i s x _ (by simp [hi]) hx hmfi
        · show nb.1 + s2.velBrown + _ + _ = _
          rw [hs2]
        · show nb.2 + s2.omegaBrown + _ + _ = _
          rw [hs2]
      · intro x hx
        obtain ⟨e1, e2⟩ := hf2 x hx
        exact ⟨by show s2.forceNonB + _ + _ = _; rw [e1], by show s2.torqueNonB + _ + _ = _; rw [e2]⟩
      · intro hx
        obtain ⟨e1, e2⟩ := hf20 hx
        rw [hs1f] at e1 e2
        exact ⟨by show s2.forceNonB + _ + _ = _; rw [e1], by show s2.torqueNonB + _ + _ = _; rw [e2]⟩
      · show s2.pos = s.pos
        rw [hs2]; show s1.pos = _; rw [hs1f]
      · show s2.orientation = s.orientation
        rw [hs2]; show s1.orientation = _; rw [hs1f]
      · constructor
        · show s2.gid = s.gid
          rw [hs2]; show s1.gid = _; rw [hs1f]
        · show s2.group = s.group
          rw [hs2]; show s1.group = _; rw [hs1f]
        · show s2.isImmovable = s.isImmovable
          rw [hs2]; show s1.isImmovable = _; rw [hs1f]
        · show s2.radius = s.radius
          rw [hs2]; show s1.radius = _; rw [hs1f]
        · show s2.length = s.length
          rw [hs2]; show s1.length = _; rw [hs1f]
        · show s2.radiusCollision = s.radiusCollision
          rw [hs2]; show s1.radiusCollision = _; rw [hs1f]
        · show s2.lengthCollision = s.lengthCollision
          rw [hs2]; show s1.lengthCollision = _; rw [hs1f]
        · show s2.colBuf = s.colBuf
          rw [hs2]; show s1.colBuf = _; rw [hs1f]
      · show s2.globalIndex = s.globalIndex
        rw [hs2]; show s1.globalIndex = _; rw [hs1f]
      · exact ⟨rfl, rfl⟩
      · rfl
    · cases cfg.sylinderFixed
      · simp only [Bool.false_eq_true, if_false, List.getElem?_map, hb3i]; rfl
      · simp only [if_true, List.getElem?_map, hb3i]; rfl

end Verif.Mobility
