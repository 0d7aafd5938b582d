import Verif.Spec.Collide
import Verif.Props.Place
import Verif.Props.Force
import Verif.Props.Near
/-! C84: collisions of bodies on all ranks. -/
namespace Verif
open Tree Image Let Near Collector Spec.Near Place Domain
namespace Collide

theorem setup {F : Force.Config} {c : Cfg} {pbc : Fin 3 → Bool} {low high : Fin 3 → ℝ} (h : Sound c pbc low high) {dom : ℕ → Box} (hd : Tiles c.root c.g.n dom)
    {S : ℕ → List Sylinder} (hS : ∀ r < c.g.n, ∀ x ∈ S r, Box.MemHalf x.pos (dom r)) (hv : ∀ r < c.g.n, ∀ x ∈ S r, Body x) (hF : Limits F c S) :
    Force.Setup F (dinfo c dom) (fun r => (S r).map toEp) := by
  have hr : ∀ r < c.g.n, ∀ x ∈ S r, 0 < (toEp x).rs := by
    intro r hr x hx
    have hb := hv r hr x hx
    have h1 : 0 < (EP.copyFromFP x).length + 2 * (EP.copyFromFP x).radius := by
      have := hb.radius; have := hb.length
      simp only [EP.copyFromFP]; linarith
    exact mul_pos (lt_of_lt_of_le h1 (le_max_left _ _)) (by have := hb.colBuf; simp only [EP.copyFromFP]; linarith)
  have ex := h.extent.1
  refine ⟨?_, ?_, fun r hr => (hd.1 r hr).1, fun r hr => (hd.1 r hr).2, ⟨fun _ => ?_, fun _ => ?_, fun _ => ?_⟩,
    ⟨fun hk => hF.big 0 hk, fun hk => hF.big 1 hk, fun hk => hF.big 2 hk⟩, ?_, ?_, hF.leaf, hF.group, hF.threads⟩
  · intro r h1 e he
    obtain ⟨x, hx, rfl⟩ := List.mem_map.mp he
    exact hS r h1 x hx
  · intro r h1 e he
    obtain ⟨x, hx, rfl⟩ := List.mem_map.mp he
    exact (hr r h1 x hx).le
  · have := ex 0; simp only [Dinfo.size, dinfo, Cfg.root, V3.sub_x]; linarith
  · have := ex 1; simp only [Dinfo.size, dinfo, Cfg.root, V3.sub_y]; linarith
  · have := ex 2; simp only [Dinfo.size, dinfo, Cfg.root, V3.sub_z]; linarith
  · intro r h1 e he
    obtain ⟨x, hx, rfl⟩ := List.mem_map.mp he
    exact Or.inr ⟨r, h1, _, he, Or.inl (hr r h1 x hx)⟩
  · intro hp r h1 e he
    obtain ⟨x, hx, rfl⟩ := List.mem_map.mp he
    have := hF.short hp r h1 x hx
    simpa only [Dinfo.size, dinfo, Cfg.root, V3.sub_x, toEp] using this

theorem filterMap_product {α β γ ι κ : Type} (f : ι → Option α) (g : κ → Option β) (h : α → β → Option γ) :
    ∀ (A : List α) (I : List ι) (B : List β) (J : List κ), A.map some = I.map f → B.map some = J.map g →
      A.flatMap (fun a => B.filterMap (h a)) = (I.flatMap fun i => J.map fun j => (i, j)).filterMap fun p => (f p.1).bind fun a => (g p.2).bind (h a) := by
  have inner : ∀ (φ : β → Option γ) (B : List β) (J : List κ), B.map some = J.map g → B.filterMap φ = J.filterMap fun j => (g j).bind φ := by
    intro φ B
    induction B with
    | nil => intro J hJ; cases J with
      | nil => rfl
      | cons j J => simp at hJ
    | cons b B ih =>
      intro J hJ
      cases J with
      | nil => simp at hJ
      | cons j J =>
        simp only [List.map_cons, List.cons.injEq] at hJ
        rw [List.filterMap_cons, List.filterMap_cons, ih J hJ.2, ← hJ.1]
        rfl
  intro A
  induction A with
  | nil => intro I B J hI _; cases I with
    | nil => rfl
    | cons i I => simp at hI
  | cons a A ih =>
    intro I B J hI hJ
    cases I with
    | nil => simp at hI
    | cons i I =>
      simp only [List.map_cons, List.cons.injEq] at hI
      rw [List.flatMap_cons, List.flatMap_cons, List.filterMap_append, ih I B J hI.2 hJ, inner _ B J hJ, List.filterMap_map]
      congr 1
      refine List.filterMap_congr fun j _ => ?_
      simp only [Function.comp, ← hI.1, Option.bind_some]

theorem forall₂_filterMap {α β : Type} (f : α → Option β) : ∀ l : List α,
    List.Forall₂ (fun a b => f a = some b) (l.filter fun a => (f a).isSome) (l.filterMap f) := by
  intro l
  induction l with
  | nil => exact List.Forall₂.nil
  | cons a l ih =>
    rw [List.filter_cons, List.filterMap_cons]
    cases h : f a with
    | none => simpa [h] using ih
    | some b => simpa [h] using ih

theorem contactOf {x y : EP} (hx : Valid x) (hy : Valid y) {b : Block} (h : recorded x y = some b) : ContactOf x y b ∧
    ((¬ Sphere x ∧ ¬ Sphere y → QueryExact x y) → Separation x y b.delta0) := by
  obtain ⟨h1, h2, h3, h4, h5, h6, -, h7, h8, h9, h10⟩ := C37_contact_partial x y hx hy b (by rw [collide_defined x y hx hy, h])
  exact ⟨⟨h2, ⟨h3.1, h3.2.1⟩, h3.2.2, ⟨h4, h5⟩, ⟨fun hne => (h6 hne).1, h9⟩, h8, ⟨h1.1, h1.2.1⟩, h10⟩, h7⟩

/-- What is recorded, whether the query is exact or not. -/
theorem pairs_core (c : Cfg) (pbc : Fin 3 → Bool) (low high : Fin 3 → ℝ) (h : Sound c pbc low high) (dom : ℕ → Box) (hd : Tiles c.root c.g.n dom)
    (S : ℕ → List Sylinder) (hS : ∀ r < c.g.n, ∀ x ∈ S r, Box.MemHalf x.pos (dom r)) (hv : ∀ r < c.g.n, ∀ x ∈ S r, Body x) (F : Force.Config)
    (hF : Limits F c S) (X : ℕ → Force.RankExec EP) (hX : ∀ r < c.g.n, (X r).Valid F ((S r).map toEp)) :
    ∃ N, ∀ fuel, N ≤ fuel → ∀ b < c.g.n, ∀ (thr : ℕ → ℕ) (pool : Pool), (∀ i, thr i < pool.length) →
      ∃ pool', collectPairCollision F (dinfo c dom) S X thr b fuel pool = some pool' ∧ ∃ (L : List (ℕ × ℕ × ℕ × Idx)) (blocks : List Block),
        pool'.flatten.Perm (pool.flatten ++ blocks) ∧ L.Nodup ∧
        List.Forall₂ (fun p blk => ∃ x y, (S b)[p.1]? = some x ∧ imageAt c S p.2 = some y ∧ IsImage c p.2 ∧ x.gid < y.gid ∧
          recorded (EP.copyFromFP x) y = some blk) L blocks ∧
        ∀ i o x y, (S b)[i]? = some x → imageAt c S o = some y → IsImage c o → x.gid < y.gid → ((i, o) ∈ L ↔ (recorded (EP.copyFromFP x) y).isSome) := by
  classical
  obtain ⟨N, hN⟩ := C78_calc_force_all F (dinfo c dom) (fun r => (S r).map toEp) (setup h hd hS hv hF) X hX
    (fun ei ej => (ei.map fun _ => (), [(ei.map ofEp, ej.map ofEp)])) (fun ei ej => by simp)
  refine ⟨N, fun fuel hfu b hb thr pool hthr => ?_⟩
  obtain ⟨forces, out, e, -, calls, hperm, hgood, hout⟩ := hN fuel hfu b hb
  -- the two lists of a call
  have himg : ∀ o, (Force.copyAt (dinfo c dom) (fun r => (S r).map toEp) o).map ofEp = imageAt c S o := by
    intro o
    simp only [Force.copyAt, imageAt, List.getElem?_map, Option.map_map]
    rfl
  have hei : ∀ q ∈ calls, (q.ei.map ofEp).map some = q.is.map fun i => ((S b)[i]?).map EP.copyFromFP := by
    intro q hq
    have := congrArg (List.map (Option.map ofEp)) (hgood q hq).1.ei
    simp only [List.map_map] at this ⊢
    have e1 : (Option.map ofEp ∘ some) = (some ∘ ofEp) := rfl
    rw [e1] at this
    rw [this]
    refine List.map_congr_left fun i _ => ?_
    simp only [Function.comp, List.getElem?_map, Option.map_map]
    rfl
  have hej : ∀ q ∈ calls, (q.ej.map ofEp).map some = q.js.map (imageAt c S) := by
    intro q hq
    have := congrArg (List.map (Option.map ofEp)) (hgood q hq).1.ej
    simp only [List.map_map] at this ⊢
    have e1 : (Option.map ofEp ∘ some) = (some ∘ ofEp) := rfl
    rw [e1] at this
    rw [this]
    refine List.map_congr_left fun o _ => ?_
    simp only [Function.comp, himg]
  have hvimg : ∀ o, o.1 < c.g.n → ∀ y, imageAt c S o = some y → Valid y ∧ 0 ≤ y.colBuf ∧ (Sphere y → SizeOK y) ∧ ∃ z ∈ S o.1, y.getRSearch = (toEp z).rs := by
    intro o ho y hy
    rw [imageAt, Option.map_eq_some_iff] at hy
    obtain ⟨z, hz, rfl⟩ := hy
    have hb := hv o.1 ho z (List.mem_of_getElem? hz)
    exact ⟨⟨hb.valid.radius, hb.valid.length, hb.valid.direction⟩, hb.colBuf, hb.size, z, List.mem_of_getElem? hz, rfl⟩
  have hvt : ∀ q ∈ calls, ∀ x ∈ q.ei.map ofEp, Valid x := by
    intro q hq x hx
    have : some x ∈ (q.ei.map ofEp).map some := List.mem_map.mpr ⟨x, hx, rfl⟩
    rw [hei q hq] at this
    obtain ⟨i, -, hi⟩ := List.mem_map.mp this
    obtain ⟨z, hz, rfl⟩ := Option.map_eq_some_iff.mp hi
    exact (hv b hb z (List.mem_of_getElem? hz)).valid
  have hvs : ∀ q ∈ calls, ∀ y ∈ q.ej.map ofEp, Valid y := by
    intro q hq y hy
    have : some y ∈ (q.ej.map ofEp).map some := List.mem_map.mpr ⟨y, hy, rfl⟩
    rw [hej q hq] at this
    obtain ⟨o, ho, hi⟩ := List.mem_map.mp this
    exact (hvimg o ((hgood q hq).1.valid o ho).1 y hi).1
  have hout' : out = calls.map fun q => (q.ei.map ofEp, q.ej.map ofEp) := by
    rw [hout]
    clear hout hgood hei hej hvt hvs hperm
    induction calls with
    | nil => rfl
    | cons q l ih => rw [List.flatMap_cons, ih]; rfl
  have hmem : ∀ k ∈ out.zipIdx.map (fun q => (⟨thr q.2, q.1.1, q.1.2⟩ : Near.Call)), k.thread < pool.length ∧
      ∃ q ∈ calls, k.targets = q.ei.map ofEp ∧ k.sources = q.ej.map ofEp := by
    intro k hk
    obtain ⟨q, hq, rfl⟩ := List.mem_map.mp hk
    have h1 := List.fst_mem_of_mem_zipIdx hq
    rw [hout'] at h1
    obtain ⟨q', hq', e'⟩ := List.mem_map.mp h1
    exact ⟨hthr _, q', hq', by rw [← e'], by rw [← e']⟩
  obtain ⟨pool', e2, hp2⟩ := collect_eq (out.zipIdx.map fun q => (⟨thr q.2, q.1.1, q.1.2⟩ : Near.Call)) pool (fun k hk => (hmem k hk).1)
    (fun k hk s hs => by obtain ⟨-, q, hq, e1, -⟩ := hmem k hk; exact hvt q hq s (e1 ▸ hs))
    (fun k hk s hs => by obtain ⟨-, q, hq, -, e1⟩ := hmem k hk; exact hvs q hq s (e1 ▸ hs))
  refine ⟨pool', ?_, ?_⟩
  · unfold collectPairCollision
    rw [e]
    exact e2
  -- all pairs that are offered
  obtain ⟨A, hA⟩ : ∃ A : List (ℕ × ℕ × ℕ × Idx), A = calls.flatMap fun q => q.is.flatMap fun i => q.js.map fun o => (i, o) := ⟨_, rfl⟩
  obtain ⟨blk, hblk⟩ : ∃ blk : ℕ × ℕ × ℕ × Idx → Option Block, blk = fun p => (((S b)[p.1]?).map EP.copyFromFP).bind fun x => (imageAt c S p.2).bind fun y =>
    if x.gid ≥ y.gid then none else recorded x y := ⟨_, rfl⟩
  have hblocks : (offered (out.zipIdx.map fun q => (⟨thr q.2, q.1.1, q.1.2⟩ : Near.Call))).flatMap (fun p => targetBlocks p.1 p.2) = A.filterMap blk := by
    have e1 : ∀ (l : List (List EP × List EP)) (m : ℕ), (offered ((l.zipIdx m).map fun q => (⟨thr q.2, q.1.1, q.1.2⟩ : Near.Call))).flatMap
        (fun p => targetBlocks p.1 p.2) = l.flatMap fun q => q.1.flatMap fun t => targetBlocks t q.2 := by
      intro l
      induction l with
      | nil => intro m; rfl
      | cons q l ih =>
        intro m
        rw [List.zipIdx_cons, List.map_cons, offered, List.flatMap_cons, List.flatMap_append, List.flatMap_cons, ← ih (m + 1)]
        simp only [offered, List.flatMap_map]
    rw [e1 out 0, hout', hA, List.flatMap_map, List.filterMap_flatMap]
    refine Migrate.flatMap_congr' fun q hq => ?_
    have := filterMap_product (fun i => ((S b)[i]?).map EP.copyFromFP) (imageAt c S) (fun x y => if x.gid ≥ y.gid then none else recorded x y)
      (q.ei.map ofEp) q.is (q.ej.map ofEp) q.js (hei q hq) (hej q hq)
    rw [hblk]
    exact this
  refine ⟨A.filter fun p => (blk p).isSome, A.filterMap blk, by rw [← hblocks]; exact hp2, ?_, ?_, ?_⟩
  · refine List.Nodup.filter _ ?_
    have hnd : (calls.flatMap Force.Call.is).Nodup := hperm.nodup_iff.mpr List.nodup_range
    rw [List.nodup_flatMap] at hnd
    rw [hA, List.nodup_flatMap]
    refine ⟨fun q hq => ?_, hnd.2.imp fun {q q'} hdj => ?_⟩
    · rw [List.nodup_flatMap]
      refine ⟨fun i _ => (hgood q hq).1.nodup.map fun o o' h => (Prod.mk.inj h).2, (hnd.1 q hq).imp fun {i i'} hne => ?_⟩
      intro p hp hp'
      obtain ⟨o, -, rfl⟩ := List.mem_map.mp hp
      obtain ⟨o', -, e'⟩ := List.mem_map.mp hp'
      exact hne (Prod.mk.inj e').1.symm
    · intro p hp hp'
      obtain ⟨i, hi, hp⟩ := List.mem_flatMap.mp hp
      obtain ⟨i', hi', hp'⟩ := List.mem_flatMap.mp hp'
      obtain ⟨o, -, rfl⟩ := List.mem_map.mp hp
      obtain ⟨o', -, e'⟩ := List.mem_map.mp hp'
      exact hdj hi ((Prod.mk.inj e').1 ▸ hi')
  · have hAv : ∀ p ∈ A, IsImage c p.2 := by
      intro p hp
      rw [hA] at hp
      obtain ⟨q, hq, hp⟩ := List.mem_flatMap.mp hp
      obtain ⟨i, -, hp⟩ := List.mem_flatMap.mp hp
      obtain ⟨o, ho, rfl⟩ := List.mem_map.mp hp
      exact (hgood q hq).1.valid o ho
    have hf := forall₂_filterMap blk A
    rw [List.forall₂_iff_get] at hf ⊢
    refine ⟨hf.1, fun m h1 h2 => ?_⟩
    have e1 := hf.2 m h1 h2
    have hm : (A.filter fun p => (blk p).isSome).get ⟨m, h1⟩ ∈ A := List.mem_of_mem_filter (List.get_mem _ _)
    have hi := hAv _ hm
    generalize (A.filter fun p => (blk p).isSome).get ⟨m, h1⟩ = p at *
    generalize (A.filterMap blk).get ⟨m, h2⟩ = B at *
    rw [hblk] at e1
    simp only [Option.bind_eq_some_iff, Option.map_eq_some_iff] at e1
    obtain ⟨_, ⟨x, hx, rfl⟩, y, hy, e1⟩ := e1
    split_ifs at e1 with hg
    exact ⟨x, y, hx, hy, hi, by simpa [EP.copyFromFP] using hg, e1⟩
  · intro i o x y hx hy ho hg
    have hxv := hv b hb x (List.mem_of_getElem? hx)
    obtain ⟨hyv, hyb, hys, -⟩ := hvimg o ho.1 y hy
    have e1 : blk (i, o) = recorded (EP.copyFromFP x) y := by
      rw [hblk]
      simp only [hx, hy, Option.map_some, Option.bind_some]
      rw [if_neg (by simpa [EP.copyFromFP] using hg)]
    rw [List.mem_filter, e1]
    refine ⟨fun hh => hh.2, fun hcl => ⟨?_, hcl⟩⟩
    obtain ⟨P, Q, hP, hQ, hlt⟩ := recorded_points _ y hxv.valid hyv hcl
    have hnear := search_core _ y hxv.valid hyv hxv.colBuf hyb hxv.size hys P Q hP hQ hlt
    have hi : i ∈ calls.flatMap Force.Call.is := by
      rw [hperm.mem_iff, List.mem_range, List.length_map]
      exact (List.getElem?_eq_some_iff.mp hx).1
    obtain ⟨q, hq1, hq2⟩ := List.mem_flatMap.mp hi
    obtain ⟨e', he', hye⟩ := Option.map_eq_some_iff.mp ((himg o).trans hy)
    have hrs : e'.rs = y.getRSearch := by
      simp only [Force.copyAt, Option.map_eq_some_iff, List.getElem?_map] at he'
      obtain ⟨_, ⟨z, hz, rfl⟩, rfl⟩ := he'
      rw [← hye]
      rfl
    have hpos : e'.pos = y.pos := by rw [← hye]; rfl
    have hoj : o ∈ q.js := by
      refine (hgood q hq1).1.complete i hq2 o.1 o.2.1 o.2.2 (toEp x) e' ho.1 ho.2 (by simp only [List.getElem?_map, hx, Option.map_some]) he' ?_
      rw [hrs, hpos]
      have h1 : V3.normSq ((toEp x).pos - y.pos) = V3.norm ((toEp x).pos - y.pos) * V3.norm ((toEp x).pos - y.pos) := by
        rw [V3.norm, Real.mul_self_sqrt]
        simp only [V3.normSq, V3.dot]
        nlinarith [mul_self_nonneg ((toEp x).pos - y.pos).x, mul_self_nonneg ((toEp x).pos - y.pos).y, mul_self_nonneg ((toEp x).pos - y.pos).z]
      have h0 : 0 ≤ V3.norm ((toEp x).pos - y.pos) := Real.sqrt_nonneg _
      rw [h1]
      rcases le_max_iff.mp hnear with hh | hh
      · exact (mul_self_le_mul_self h0 hh).trans (le_max_left _ _)
      · exact (mul_self_le_mul_self h0 hh).trans (le_max_right _ _)
    rw [hA]
    exact List.mem_flatMap.mpr ⟨q, hq1, List.mem_flatMap.mpr ⟨i, hq2, List.mem_map.mpr ⟨o, hoj, rfl⟩⟩⟩

end Collide
open Collide

/-- C84.  With the bodies on the ranks that own their places: `collectPairCollision` ends on every rank, with any schedule of its loops and any distribution of
the calls over threads, and adds to the queues of the rank exactly one contact for every pair of a body of the rank and an image of a body of any
rank that has a larger id and is closer than the buffer distance; the contact is one of these two, with the image in its displaced place, and has their
separation.
Missing for C84: rods for which `DCPQuery` is wrong (`C32_false`; for them at most one contact), spheres with enlarged collision shape that
the search misses (`C40_false`; excluded by `Body`). -/
theorem C84_pairs_partial (c : Cfg) (pbc : Fin 3 → Bool) (low high : Fin 3 → ℝ) (h : Sound c pbc low high) (dom : ℕ → Box) (hd : Tiles c.root c.g.n dom)
    (S : ℕ → List Sylinder) (hS : ∀ r < c.g.n, ∀ x ∈ S r, Box.MemHalf x.pos (dom r)) (hv : ∀ r < c.g.n, ∀ x ∈ S r, Body x) (F : Force.Config)
    (hF : Limits F c S) (X : ℕ → Force.RankExec EP) (hX : ∀ r < c.g.n, (X r).Valid F ((S r).map toEp)) :
    ∃ N, ∀ fuel, N ≤ fuel → ∀ b < c.g.n, ∀ (thr : ℕ → ℕ) (pool : Pool), (∀ i, thr i < pool.length) →
      ∃ pool', collectPairCollision F (dinfo c dom) S X thr b fuel pool = some pool' ∧ ∃ (L : List (ℕ × ℕ × ℕ × Idx)) (blocks : List Block),
        pool'.flatten.Perm (pool.flatten ++ blocks) ∧ L.Nodup ∧
        List.Forall₂ (fun p blk => ∃ x y, (S b)[p.1]? = some x ∧ imageAt c S p.2 = some y ∧ IsImage c p.2 ∧ x.gid < y.gid ∧
          ContactOf (EP.copyFromFP x) y blk ∧
          ((¬ Sphere (EP.copyFromFP x) ∧ ¬ Sphere y → QueryExact (EP.copyFromFP x) y) → Separation (EP.copyFromFP x) y blk.delta0)) L blocks ∧
        ∀ i o x y, (S b)[i]? = some x → imageAt c S o = some y → IsImage c o → x.gid < y.gid →
          (¬ Sphere (EP.copyFromFP x) ∧ ¬ Sphere y → QueryExact (EP.copyFromFP x) y) → ((i, o) ∈ L ↔ Close (EP.copyFromFP x) y) := by
  obtain ⟨N, hN⟩ := pairs_core c pbc low high h dom hd S hS hv F hF X hX
  refine ⟨N, fun fuel hfu b hb thr pool hthr => ?_⟩
  obtain ⟨pool', e1, L, blocks, e2, e3, e4, e5⟩ := hN fuel hfu b hb thr pool hthr
  have hvimg : ∀ o, o.1 < c.g.n → ∀ y, imageAt c S o = some y → Valid y := by
    intro o ho y hy
    rw [imageAt, Option.map_eq_some_iff] at hy
    obtain ⟨z, hz, rfl⟩ := hy
    have hb := hv o.1 ho z (List.mem_of_getElem? hz)
    exact ⟨hb.valid.radius, hb.valid.length, hb.valid.direction⟩
  refine ⟨pool', e1, L, blocks, e2, e3, e4.imp fun p blk => ?_, fun i o x y hx hy ho hg hq => ?_⟩
  · rintro ⟨x, y, hx, hy, hi, hg, hr⟩
    exact ⟨x, y, hx, hy, hi, hg, contactOf (hv b hb x (List.mem_of_getElem? hx)).valid (hvimg p.2 hi.1 y hy) hr⟩
  · rw [e5 i o x y hx hy ho hg, recorded_iff _ _ (hv b hb x (List.mem_of_getElem? hx)).valid (hvimg o ho.1 y hy) hq]

/-- C84.  The same in every state of a run (without projection onto a monolayer): whatever was done to the bodies since `prepareStep`, apart from moving them. -/
theorem C84_run_partial (c : Cfg) (pbc : Fin 3 → Bool) (low high : Fin 3 → ℝ) (h : Sound c pbc low high) (hm : c.monolayer = false) (P₀ : ℕ → List Sylinder)
    (hP : c.g.n ≤ total P₀ c.g.n) (s : Sys) (hs : Run c (Place.Valid c) P₀ s) (S : ℕ → List Sylinder)
    (hpos : ∀ r < c.g.n, (S r).map Sylinder.pos = (s.P r).map Sylinder.pos) (hv : ∀ r < c.g.n, ∀ x ∈ S r, Body x) (F : Force.Config)
    (hF : Limits F c S) (X : ℕ → Force.RankExec EP) (hX : ∀ r < c.g.n, (X r).Valid F ((S r).map toEp)) :
    ∃ N, ∀ fuel, N ≤ fuel → ∀ b < c.g.n, ∀ (thr : ℕ → ℕ) (pool : Pool), (∀ i, thr i < pool.length) →
      ∃ pool', collectPairCollision F (dinfo c s.dec.dom) S X thr b fuel pool = some pool' ∧ ∃ (L : List (ℕ × ℕ × ℕ × Idx)) (blocks : List Block),
        pool'.flatten.Perm (pool.flatten ++ blocks) ∧ L.Nodup ∧
        List.Forall₂ (fun p blk => ∃ x y, (S b)[p.1]? = some x ∧ imageAt c S p.2 = some y ∧ IsImage c p.2 ∧ x.gid < y.gid ∧
          ContactOf (EP.copyFromFP x) y blk ∧
          ((¬ Sphere (EP.copyFromFP x) ∧ ¬ Sphere y → QueryExact (EP.copyFromFP x) y) → Separation (EP.copyFromFP x) y blk.delta0)) L blocks ∧
        ∀ i o x y, (S b)[i]? = some x → imageAt c S o = some y → IsImage c o → x.gid < y.gid →
          (¬ Sphere (EP.copyFromFP x) ∧ ¬ Sphere y → QueryExact (EP.copyFromFP x) y) → ((i, o) ∈ L ↔ Close (EP.copyFromFP x) y) := by
  obtain ⟨⟨h1, h2⟩, -⟩ := C83_placed c pbc low high h hm P₀ hP s hs
  refine C84_pairs_partial c pbc low high h s.dec.dom h1 S (fun r hr x hx => ?_) hv F hF X hX
  have : x.pos ∈ (s.P r).map Sylinder.pos := by rw [← hpos r hr]; exact List.mem_map.mpr ⟨x, hx, rfl⟩
  obtain ⟨y, hy, e⟩ := List.mem_map.mp this
  rw [← e]
  exact (h2 r hr y hy).1

/-- Two overlapping spheres on two ranks in a periodic box: the contact is recorded on the rank of the one with the smaller id. -/
noncomputable def Collide.two : ℕ → List Sylinder := fun r =>
  if r = 0 then [Sylinder.make 7 0.3 0.3 0 0 ⟨0.4, 0.5, 0.5⟩] else if r = 1 then [Sylinder.make 9 0.3 0.3 0 0 ⟨0.6, 0.5, 0.5⟩] else []

theorem Collide.two_body {r : ℕ} {x : Sylinder} (hx : x ∈ two r) : Body x ∧ (EP.copyFromFP x).getRSearch = 0.6 ∧ Sphere (EP.copyFromFP x) := by
  have key : ∀ (g : ℤ) (p : V3), let x := Sylinder.make g 0.3 0.3 0 0 p
      Body x ∧ (EP.copyFromFP x).getRSearch = 0.6 ∧ Sphere (EP.copyFromFP x) := by
    intro g p
    refine ⟨⟨⟨?_, ?_, ?_⟩, ?_, ?_, ?_, fun _ => Or.inr ?_⟩, ?_, ?_⟩
    · norm_num [EP.copyFromFP, Sylinder.make]
    · norm_num [EP.copyFromFP, Sylinder.make]
    · norm_num [EP.copyFromFP, Sylinder.make, Quat.rot, Quat.vec, V3.norm, V3.normSq, V3.dot, V3.cross]
    · norm_num [Sylinder.make]
    · norm_num [Sylinder.make]
    · norm_num [Sylinder.make]
    · norm_num [EP.copyFromFP, Sylinder.make]
    · norm_num [EP.copyFromFP, Sylinder.make, EP.getRSearch]
    · norm_num [EP.copyFromFP, Sylinder.make, Sphere]
  unfold two at hx
  split_ifs at hx <;> simp only [List.mem_singleton, List.not_mem_nil] at hx
  · subst hx; exact key _ _
  · subst hx; exact key _ _

example : ∃ (c : Cfg) (F : Force.Config) (X : ℕ → Force.RankExec EP) (fuel : ℕ) (pool' : Pool), c.g.n = 2 ∧
    collectPairCollision F (dinfo c halves) two X (fun i => i % 2) 0 fuel [[], []] = some pool' ∧ ∃ b ∈ pool'.flatten, b.gidI = 7 ∧ b.gidJ = 9 := by
  obtain ⟨c, h, hg, -, hr⟩ := cube false ⟨2, 1, 1⟩ (by simp)
  have hn : c.g.n = 2 := by rw [hg]; rfl
  have hlow : ∀ k, c.d.low k = 0 := fun k => (h.extent.2.2.1 k rfl).1
  have hhigh : ∀ k, c.d.high k = 1 := fun k => (h.extent.2.2.1 k rfl).2
  obtain ⟨N, hN⟩ := C84_pairs_partial c _ _ _ h halves (by rw [hr, hn]; exact halves_grid.tiles) two (by
      intro r _ x hx
      unfold two at hx
      split_ifs at hx with h0 h1 <;> simp only [List.mem_singleton, List.not_mem_nil] at hx
      · subst hx h0; norm_num [Box.MemHalf, halves, Sylinder.make]
      · subst hx h1; norm_num [Box.MemHalf, halves, Sylinder.make])
    (fun r _ x hx => (two_body hx).1) ⟨100, 1, 2, 3⟩
    ⟨le_rfl, by norm_num, by norm_num, fun k _ => by rw [hlow, hhigh]; norm_num, fun _ r _ x hx => by
      rw [(two_body hx).2.1, hlow, hhigh]; norm_num⟩
    (fun r => Force.plainExec 3 ((two r).map toEp)) (fun r _ => Force.plainExec_valid (c := ⟨100, 1, 2, 3⟩) (by norm_num) _)
  obtain ⟨pool', e, L, blocks, h1, -, h2, h3⟩ := hN N le_rfl 0 (by rw [hn]; norm_num) (fun i => i % 2) [[], []] (fun i => Nat.mod_lt i (by norm_num))
  refine ⟨c, _, _, N, pool', hn, e, ?_⟩
  have hy : imageAt c two (1, 0, ⟨0, 0, 0⟩) = some (EP.copyFromFP (Sylinder.make 9 0.3 0.3 0 0 ⟨0.6, 0.5, 0.5⟩)) := by
    simp [imageAt, two, EP.copyFromFP, Sylinder.make]
    ext <;> simp
  have hx : (two 0)[0]? = some (Sylinder.make 7 0.3 0.3 0 0 ⟨0.4, 0.5, 0.5⟩) := rfl
  have s1 := (two_body (List.mem_of_getElem? hx)).2.2
  have s2 : Sphere (EP.copyFromFP (Sylinder.make 9 0.3 0.3 0 0 ⟨0.6, 0.5, 0.5⟩)) := (two_body (r := 1) (by simp [two])).2.2
  have hm := (h3 0 (1, 0, ⟨0, 0, 0⟩) _ _ hx hy ⟨by rw [hn]; norm_num, fun _ => rfl, fun _ => rfl, fun _ => rfl⟩ (by norm_num [EP.copyFromFP, Sylinder.make])
    (fun hh => absurd s1 hh.1)).2 (by
      have core : ∀ (x : EP) (p : V3), Sphere x → (Core x p ↔ p = x.pos) := fun x p hs => by simp [Core, hs]
      refine ⟨_, ⟨⟨_, _, (core _ _ s1).2 rfl, (core _ _ s2).2 rfl, rfl⟩, ?_⟩, ?_⟩
      · intro p q hp hq
        rw [(core _ _ s1).1 hp, (core _ _ s2).1 hq]
      · unfold bufferOf Rad
        rw [if_pos s1, if_pos s2]
        have : V3.norm ((⟨0.4, 0.5, 0.5⟩ : V3) - ⟨0.6, 0.5, 0.5⟩) = 0.2 := by
          rw [V3.norm, show V3.normSq ((⟨0.4, 0.5, 0.5⟩ : V3) - ⟨0.6, 0.5, 0.5⟩) = 0.2 ^ 2 by norm_num [V3.normSq, V3.dot], Real.sqrt_sq (by norm_num)]
        simp only [EP.copyFromFP, Sylinder.make, this]
        norm_num)
  obtain ⟨i, hi, ei⟩ := List.mem_iff_getElem.mp hm
  obtain ⟨hl, hget⟩ := List.forall₂_iff_get.mp h2
  obtain ⟨x, y, g1, g2, -, -, g3⟩ := hget i hi (by omega)
  simp only [List.get_eq_getElem, ei] at g1 g2 g3
  rw [hx] at g1
  rw [hy] at g2
  cases g1
  cases g2
  exact ⟨blocks[i], h1.mem_iff.mpr (by simp), g3.1.gid.1, g3.1.gid.2.1⟩

end Verif
