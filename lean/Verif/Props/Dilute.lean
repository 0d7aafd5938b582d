import Verif.Lemmas.DiluteSolve
import Verif.Lemmas.Response
import Verif.Props.Sim
/-!
C109: in a step in which no movable body is pushed by two constraints the solver converges.
-/
namespace Verif
open RunStep Mobility Collector ConOp BCQP Spec.Mobility Spec.Collector Spec.Momentum Spec.Dilute

/-- The velocities `U`, `W` (per global index) that the bodies of all ranks have without constraints. -/
def C109_Free (cfg : Cfg) (ranks : List RankIn) (U W : ℤ → V3) : Prop :=
  ∀ r ∈ ranks, ∀ so, runStep cfg r.force r.velPart (noConstraints r.bodies.length) r.bodies = some so →
    ∀ (i : ℕ) (D : Draws) (s : Sylinder), r.bodies[i]? = some (D, s) → at6 so.velNonCon i = (U s.globalIndex, W s.globalIndex)

/-- The step meets the conditions under which it is defined, see C88. -/
structure C109_Ready (ranks : List RankIn) : Prop where
  ready : ∀ r ∈ ranks, C88_Ready r
  matrix : ∀ r ∈ ranks, r.matOrder.Perm (matrixWrites r.pool)
  vector : ∀ r ∈ ranks, r.vecOrder.Perm (vectorWrites r.pool)
  size : 6 * ((ranks.flatMap RankIn.bodies).length : ℤ) ≤ 2 ^ 31 - 1
  fits : ∀ r ∈ ranks, C88_Fits (ranks.flatMap RankIn.bodies).length r
  index : ∀ (g : ℕ) (W : Draws) (s : Sylinder), (ranks.flatMap RankIn.bodies)[g]? = some (W, s) → s.globalIndex = g

/-- The bodies of all ranks. -/
def C109_bodies (ranks : List RankIn) : List Sylinder := (ranks.flatMap RankIn.bodies).map Prod.snd

/-- A constraint responds to its multiplier at a rate between `mu` and `L`; at its guess, which is not negative for a contact, it opens or closes at a rate of at most `R`. -/
def C109_Bounded (cfg : Cfg) (ranks : List RankIn) (U W : ℤ → V3) (mu L R : ℝ) (b : Block) : Prop :=
  (∃ lam, Response cfg.viscosity cfg.dt (C109_bodies ranks) b lam ∧ mu ≤ lam ∧ lam ≤ L ∧ |b.delta0 / cfg.dt + gapRate U W b + lam * b.gamma| ≤ R) ∧
  (b.bilateral = false → 0 ≤ b.gamma) ∧ -(10 : ℝ) ^ 8 ≤ b.gamma ∧ b.gamma ≤ BCQP.dblMax / 20

/-- C109.  There is a number `N`, which depends only on the number `n` of constraints, the bounds `mu`, `L`, `R` and the tolerance, such that every step (any number of ranks, any
bodies, any contacts, springs and rigid links, whatever of them is active) in which no movable body is pushed by two constraints ends with a residual below the tolerance if
the limit of iterations is at least `N`.  No multiplier is at its upper bound. -/
theorem C109_converges (n : ℕ) (mu L R tol : ℝ) (hmu : 0 < mu) (hml : mu ≤ L) (hLR : L ≤ R) (htol : 0 < tol) (hfine : 10 * dblEps * L ≤ 1)
    (ht : 10 * dblEps * (R + L) ^ 2 ≤ min mu (mu ^ 2) * tol ^ 2) (hcap : (R + tol) / mu ≤ BCQP.dblMax / 40) :
    ∃ N : ℕ, ∀ (cfg : Cfg) (c : Control) (fuel : ℕ) (ranks : List RankIn) (U W : ℤ → V3), 0 < cfg.viscosity → 0 < cfg.dt → C109_Ready ranks → C109_Free cfg ranks U W →
      (constraints ranks).length = n → Dilute (C109_bodies ranks) (constraints ranks) → (∀ b ∈ constraints ranks, C109_Bounded cfg ranks U W mu L R b) →
      c.choice ≠ 1 → c.res = tol → N ≤ c.maxIte →
      ∃ out last, runStepAll cfg c id fuel ranks = some out ∧ out.history.getLast? = some last ∧ last.res < tol ∧
        ∀ p ∈ out.pools, ∀ b ∈ p.flatten, b.gamma ≤ BCQP.dblMax / 10 - dblEps * 100 := by
  obtain ⟨N, hN⟩ := Dilute.solve n mu L R tol hmu hml hLR htol hfine ht
  refine ⟨N, fun cfg c fuel ranks U W hvis hdt hready hUW hn hD hB hch hres hite => ?_⟩
  have hok : ∀ r ∈ ranks, RankOk cfg r := fun r hr => C88_ok cfg r (hready.ready r hr)
  obtain ⟨pre, hpre, hP⟩ := pre_spec cfg hvis hdt ranks hok
  have hlen := C88_length cfg ranks pre hP
  have hcol := C88_cols ranks hready.fits
  have hX := Dilute.velocity cfg hvis hdt ranks hok pre hP hready.index U W hUW
  have hmobs := Dilute.mob_bodies cfg hvis ranks pre hP hok
  obtain ⟨sizes, hsizes⟩ : ∃ sizes, sizes = pre.map fun p => p.2.1.length := ⟨_, rfl⟩
  obtain ⟨vnc, hvnc⟩ : ∃ vnc, vnc = (pre.map fun p => p.2.1).flatten := ⟨_, rfl⟩
  obtain ⟨blocks, hblocks⟩ : ∃ blocks, blocks = ranks.flatMap fun r => r.pool.flatten := ⟨_, rfl⟩
  have hcons : constraints ranks = blocks := hblocks.symm
  rw [hcons] at hn hD hB
  rw [← hvnc] at hlen hX
  rw [← hblocks] at hcol
  rw [← hsizes] at hmobs
  have hk : vnc.length = sizes.sum := by rw [hvnc, hsizes, List.length_flatten, List.map_map]; rfl
  have hcol' : ∀ b ∈ blocks, ∀ e ∈ blockEntries b, 0 ≤ e.1 ∧ e.1 < (vnc.length : ℤ) := by
    rw [hlen]; push_cast; exact hcol
  obtain rfl : n = (blocks.map blockEntries).length := by rw [List.length_map]; exact hn.symm
  have hmem : ∀ i : Fin (blocks.map blockEntries).length, ∃ b, blocks[(i : ℕ)]? = some b := fun i => ⟨_, List.getElem?_eq_getElem (by simpa using i.2)⟩
  choose blk hblk using hmem
  have hresp : ∀ i, C109_Bounded cfg ranks U W mu L R (blk i) := fun i => hB _ (List.mem_of_getElem? (hblk i))
  choose lam hlam1 hlam2 using fun i => (hresp i).1
  have hop : ∀ x, ((problemOf blocks (pre.map Prod.fst) sizes vnc cfg.dt).op.applyCol x 0 1 0).1 = (Matrix.diagonal lam).mulVec x := by
    refine Dilute.operator_diagonal cfg.viscosity cfg.dt (C109_bodies ranks) ?_ ?_ blocks _ sizes vnc (by rw [hlen, C109_bodies, List.length_map])
      (fun F g b hb => hmobs _ hk F g b hb) ?_ hD lam ?_
    · intro b hb
      obtain ⟨y, hy, rfl⟩ := List.mem_map.1 hb
      obtain ⟨r, hr, hy⟩ := List.mem_flatMap.1 hy
      exact (hok r hr).valid y hy
    · intro g s hs
      rw [C109_bodies, List.getElem?_map, Option.map_eq_some_iff] at hs
      obtain ⟨⟨D, s'⟩, hs, rfl⟩ := hs
      exact hready.index g D s' hs
    · intro b hb
      rw [hblocks] at hb
      obtain ⟨r, hr, hb⟩ := List.mem_flatMap.1 hb
      obtain ⟨q, hq, hb⟩ := List.mem_flatten.1 hb
      rw [C109_bodies, List.length_map]
      exact (hready.fits r hr).1 q hq b hb
    · intro i b hb
      rw [hblk i] at hb
      cases hb
      exact hlam1 i
  have hent : ∀ i : Fin (blocks.map blockEntries).length, (blocks.map vecEntry).get (Fin.cast (by simp) i) = vecEntry (blk i) := by
    intro i
    have := (List.getElem?_eq_some_iff.1 (hblk i)).2
    simp [this]
  have hrow : ∀ i : Fin (blocks.map blockEntries).length, (blocks.map blockEntries).get i = blockEntries (blk i) := by
    intro i
    have := (List.getElem?_eq_some_iff.1 (hblk i)).2
    simp [this]
  have hve : ∀ b : Block, (vecEntry b).delta0 = b.delta0 ∧ (vecEntry b).gammaGuess = b.gamma ∧ (vecEntry b).biFlag = if b.bilateral then 1 else 0 := by
    intro b
    unfold vecEntry
    cases b.bilateral <;> exact ⟨rfl, rfl, rfl⟩
  obtain ⟨P, hPd⟩ : ∃ P, P = problemOf blocks (pre.map Prod.fst) sizes vnc cfg.dt := ⟨_, rfl⟩
  have hbig : (10 : ℝ) ^ 9 ≤ BCQP.dblMax / 40 := by
    unfold BCQP.dblMax
    have : (2 : ℝ) ^ 100 ≤ 2 ^ 1023 := pow_le_pow_right₀ (by norm_num) (by norm_num)
    generalize (2 : ℝ) ^ 1023 = w at *
    norm_num at *
    linarith
  have hg0 : ∀ i : Fin (blocks.map blockEntries).length, (problemOf blocks (pre.map Prod.fst) sizes vnc cfg.dt).gamma0 i = (blk i).gamma := by
    intro i
    have : (problemOf blocks (pre.map Prod.fst) sizes vnc cfg.dt).gamma0 i = _ := congrArg VecEntry.gammaGuess (hent i)
    rw [this, (hve _).2.1]
  have hlb : ∀ i : Fin (blocks.map blockEntries).length, lowerBound (problemOf blocks (pre.map Prod.fst) sizes vnc cfg.dt).biFlag i = if (blk i).bilateral then -(10 : ℝ) ^ 8 else 0 := by
    intro i
    have h1 : (problemOf blocks (pre.map Prod.fst) sizes vnc cfg.dt).biFlag i = _ := congrArg VecEntry.biFlag (hent i)
    have h2 : lowerBound (problemOf blocks (pre.map Prod.fst) sizes vnc cfg.dt).biFlag i = -(10 : ℝ) ^ 8 * (problemOf blocks (pre.map Prod.fst) sizes vnc cfg.dt).biFlag i := rfl
    rw [h2, h1, (hve _).2.2]
    cases (blk i).bilateral <;> simp
  have hq : ∀ i : Fin (blocks.map blockEntries).length, (problemOf blocks (pre.map Prod.fst) sizes vnc cfg.dt).q i = (blk i).delta0 / cfg.dt + gapRate U W (blk i) := by
    intro i
    have hqi : (problemOf blocks (pre.map Prod.fst) sizes vnc cfg.dt).q i =
        (1 / cfg.dt) * ((blocks.map vecEntry).get (Fin.cast (by simp) i)).delta0 +
          ((1 : ℝ) * ∑ j : Fin vnc.length, denseRow ((blocks.map blockEntries).get i) ((j : ℕ) : ℤ) * vnc.get j + 0 * 0) := rfl
    rw [hqi, hent, hrow, (hve _).1, denseRow_apply vnc.get (velVec U W) hX (blockEntries (blk i)) (hcol' _ (List.mem_of_getElem? (hblk i))),
      block_apply _ U W (velVec_is U W)]
    ring
  obtain ⟨A, hA⟩ : ∃ A : Vec (blocks.map blockEntries).length → Vec (blocks.map blockEntries).length,
      A = fun x => ((problemOf blocks (pre.map Prod.fst) sizes vnc cfg.dt).op.applyCol x 0 1 0).1 := ⟨_, rfl⟩
  obtain ⟨q, hqd⟩ : ∃ q : Vec (blocks.map blockEntries).length, q = (problemOf blocks (pre.map Prod.fst) sizes vnc cfg.dt).q := ⟨_, rfl⟩
  obtain ⟨lb, hlbd⟩ : ∃ lb : Vec (blocks.map blockEntries).length, lb = lowerBound (problemOf blocks (pre.map Prod.fst) sizes vnc cfg.dt).biFlag := ⟨_, rfl⟩
  obtain ⟨ub, hubd⟩ : ∃ ub : Vec (blocks.map blockEntries).length, ub = defaultUpper := ⟨_, rfl⟩
  obtain ⟨g0, hgd⟩ : ∃ g0 : Vec (blocks.map blockEntries).length, g0 = (problemOf blocks (pre.map Prod.fst) sizes vnc cfg.dt).gamma0 := ⟨_, rfl⟩
  have hup : ∀ i, ub i = BCQP.dblMax / 10 := fun i => congrFun hubd i
  have hq : ∀ i, q i = (blk i).delta0 / cfg.dt + gapRate U W (blk i) := fun i => (congrFun hqd i).trans (hq i)
  have hlb : ∀ i, lb i = if (blk i).bilateral then -(10 : ℝ) ^ 8 else 0 := fun i => (congrFun hlbd i).trans (hlb i)
  have hg0 : ∀ i, g0 i = (blk i).gamma := fun i => (congrFun hgd i).trans (hg0 i)
  have hop : ∀ x, A x = (Matrix.diagonal lam).mulVec x := fun x => (congrFun hA x).trans (hop x)
  obtain ⟨o, last, hs, hlast, hlt, hmax⟩ := hN A lam q lb ub g0 hop (fun i => ⟨(hlam2 i).1, (hlam2 i).2.1⟩)
    (by
      intro i
      rw [hlb, hup]
      split <;> linarith)
    (by
      intro i
      obtain ⟨-, h1, h2, h3⟩ := hresp i
      rw [hlb, hup, hg0]
      constructor
      · cases hb : (blk i).bilateral
        · simpa using h1 hb
        · simpa using h2
      · linarith)
    (by
      intro i
      rw [hop, Matrix.mulVec_diagonal, hg0, hq, add_comm]
      exact (hlam2 i).2.2) c.maxIte hite
  have hcapi : ∀ i, o.x i ≤ BCQP.dblMax / 10 - dblEps * 100 := by
    intro i
    have hup' := hmax i
    obtain ⟨-, -, -, h3⟩ := hresp i
    rw [hup, hg0] at hup'
    refine hup' ?_
    have heps : dblEps * 100 < 1 := by unfold dblEps; norm_num
    linarith
  rw [hA, hqd, hlbd, hubd, hgd] at hs
  obtain ⟨s, hs', hsg, hsh⟩ : ∃ s, (problemOf blocks (pre.map Prod.fst) sizes vnc cfg.dt).solveConstraints id fuel c = .ok s ∧ s.gamma = o.x ∧ s.history = o.history := by
    unfold Prepared.solveConstraints
    have : (problemOf blocks (pre.map Prod.fst) sizes vnc cfg.dt).run id fuel c = .ok o := by
      unfold Prepared.run
      rw [if_neg hch, hres]
      exact hs
    rw [this]
    exact ⟨_, rfl, rfl, rfl⟩
  obtain ⟨out, hout, hh, -, -, hpo⟩ := runStepAll_ex cfg hvis hdt c id fuel ranks hok hready.matrix hready.vector
    (fun r hr => C88_built _ hready.size r (hready.matrix r hr) (hready.fits r hr)) pre hpre hP blocks hblocks vnc hvnc sizes hsizes hcol' s hs'
  refine ⟨out, last, hout, by rw [hh, hsh]; exact hlast, hlt, ?_⟩
  intro p hp b hb
  obtain ⟨r, hr⟩ := List.mem_iff_getElem?.1 hp
  have hrl : r < ranks.length := lt_of_lt_of_le (List.getElem?_eq_some_iff.1 hr).1 (Dilute.pools_length cfg c id fuel ranks out hout)
  obtain ⟨g, p', hg, hgl, hp', hw⟩ := hpo r _ (List.getElem?_eq_getElem hrl)
  rw [hr] at hp'
  cases hp'
  obtain ⟨-, hflat, -⟩ := writeBack_flat _ _ g hgl hw
  have hbg : b.gamma ∈ g := by rw [← hflat]; exact List.mem_map_of_mem hb
  have hin : b.gamma ∈ List.ofFn s.gamma := by
    have hsum : (ranks.map fun r => r.pool.flatten.length).sum = (List.ofFn s.gamma).length := by
      rw [List.length_ofFn]
      show _ = (blocks.map blockEntries).length
      rw [List.length_map, hblocks, List.length_flatMap]
    rw [← (parts_forall₂ _ _ hsum).2]
    exact List.mem_flatten.2 ⟨g, List.mem_of_getElem? hg, hbg⟩
  obtain ⟨i, hi⟩ := (List.mem_ofFn' _ _).1 hin
  rw [← hi, hsg]
  exact hcapi i

/-- C109.  Every constraint has a response that is not negative; it is positive if the constraint is a spring or pushes or turns some body that can move.  So the bounds
`mu > 0` and `L` of C109_converges exist for every step in which no constraint is void. -/
theorem C109_response (cfg : Cfg) (hvis : 0 < cfg.viscosity) (hdt : 0 < cfg.dt) (ranks : List RankIn) (h : C109_Ready ranks) (b : Block) (hb : b ∈ constraints ranks) :
    ∃ lam, Response cfg.viscosity cfg.dt (C109_bodies ranks) b lam ∧ 0 ≤ lam ∧
      ((b.bilateral = true ∧ 0 < b.kappa) ∨
        (∃ x ∈ C109_bodies ranks, x.isImmovable = false ∧ (unitForce b x.globalIndex, unitTorque b x.globalIndex) ≠ (0, 0)) → 0 < lam) := by
  obtain ⟨r, hr, hb⟩ := List.mem_flatMap.1 hb
  obtain ⟨q, hq, hb⟩ := List.mem_flatten.1 hb
  have hfit := (h.fits r hr).1 q hq b hb
  have hl : (ranks.flatMap RankIn.bodies).length = (C109_bodies ranks).length := by rw [C109_bodies, List.length_map]
  rw [hl] at hfit
  refine Response.ex hvis hdt (C109_bodies ranks) ?_ ?_ b hfit.1 hfit.2
  · intro x hx
    obtain ⟨y, hy, rfl⟩ := List.mem_map.1 hx
    obtain ⟨r, hr, hy⟩ := List.mem_flatMap.1 hy
    exact (h.ready r hr).1 y hy
  · intro g x hx
    rw [C109_bodies, List.getElem?_map, Option.map_eq_some_iff] at hx
    obtain ⟨⟨D, x'⟩, hx, rfl⟩ := hx
    exact h.index g D x' hx

/-! ### In a run -/

theorem C109_step_ready {C : Sim.Cfg} {pbc : Fin 3 → Bool} {low high : Fin 3 → ℝ} {P₀ : ℕ → List Sylinder} (h : Sim.Sound C pbc low high P₀)
    {fl : ℝ → ℝ} {pre : Bool} {s s' : Sim.State} {q : Place.Sys} {ranks : List RankIn} {out : Out} (hs : Sim.Step C fl pre s q ranks out s') (hq : Sim.Prepared C P₀ q)
    (hbig : 6 * ((Sim.all C.place.g.n P₀).length : ℤ) ≤ 2 ^ 31 - 1)
    (hfit : ∀ rk ∈ ranks, (((rk.pool.flatten.map (fun b => if b.oneSide then 6 else 12)).sum : ℕ) : ℤ) ≤ 2 ^ 31 - 1) : C109_Ready ranks := by
  have hsum : (Sim.sizes C.place.g.n q.P).sum = (Sim.all C.place.g.n P₀).length := by
    have h1 := hq.kinds.length_eq
    rw [List.length_map, List.length_map] at h1
    rw [← h1, Sim.sizes, Sim.all, List.length_flatMap]
  have hix : ((ranks.flatMap RankIn.bodies).map Prod.snd).map Sylinder.globalIndex = (List.range (Sim.all C.place.g.n P₀).length).map fun g : ℕ => (g : ℤ) := by
    rw [hs.index, Sim.numbered_all_index, hsum]
  have hlen : (ranks.flatMap RankIn.bodies).length = (Sim.all C.place.g.n P₀).length := by
    have := congrArg List.length hix
    simpa using this
  obtain ⟨order, ho, hdir⟩ := hs.publish
  obtain ⟨X, hX, hcol⟩ := hs.collect
  rw [hdir] at hcol
  refine ⟨hs.ready h hq, hs.matrix, hs.vector, by rw [hlen]; exact hbig, ?_, ?_⟩
  · intro rk hrk
    obtain ⟨r, hr, rfl⟩ := List.getElem_of_mem hrk
    have h1 : ranks[r]? = some ranks[r] := List.getElem?_eq_getElem hr
    have hrn : r < C.place.g.n := by rw [← hs.size]; exact hr
    refine ⟨?_, hfit _ hrk, ?_⟩
    · intro l hl b hbl
      obtain ⟨-, g2, g3⟩ := Sim.pool_spec hq h s.dir order ho X hX hrn _ (hcol r _ h1) b (List.mem_flatten.2 ⟨l, hl, hbl⟩)
      rw [hsum] at g2 g3
      rw [hlen]
      exact ⟨g2, g3⟩
    · obtain ⟨g1, g2⟩ := hs.mobMin r _ h1
      rw [g1, g2]
      have : Place.total q.P (r + 1) = Place.total q.P r + (q.P r).length := rfl
      omega
  · intro g W y hy
    have h1 := congrArg (fun l => l[g]?) hix
    simp only [List.getElem?_map, hy, Option.map_some] at h1
    obtain ⟨a, ha, hb⟩ := Option.map_eq_some_iff.1 h1.symm
    rw [← hb, (List.getElem?_eq_some_iff.1 ha).2.symm, List.getElem_range]

/-- A step of a run from the bodies `P₀` in the configuration `C` that is dilute: no movable body is pushed by two of its `n` constraints, all of which respond at a rate
between `mu` and `L`; the sizes fit into `int`. -/
structure C109_Dilute (C : Sim.Cfg) (P₀ : ℕ → List Sylinder) (pre : Bool) (ranks : List RankIn) (n : ℕ) (mu L R : ℝ) : Prop where
  size : 6 * ((Sim.all C.place.g.n P₀).length : ℤ) ≤ 2 ^ 31 - 1
  entries : ∀ rk ∈ ranks, (((rk.pool.flatten.map (fun b => if b.oneSide then 6 else 12)).sum : ℕ) : ℤ) ≤ 2 ^ 31 - 1
  count : (constraints ranks).length = n
  dilute : Dilute (C109_bodies ranks) (constraints ranks)
  bounded : ∃ U W, C109_Free (C.mobility pre) ranks U W ∧ ∀ b ∈ constraints ranks, C109_Bounded (C.mobility pre) ranks U W mu L R b

/-- C109 for whole runs (gradient solver, exact comparisons).  In every dilute step of every run whose limit of iterations is at least `N` the solver converges. -/
theorem C109_run (n : ℕ) (mu L R tol : ℝ) (hmu : 0 < mu) (hml : mu ≤ L) (hLR : L ≤ R) (htol : 0 < tol) (hfine : 10 * dblEps * L ≤ 1)
    (ht : 10 * dblEps * (R + L) ^ 2 ≤ min mu (mu ^ 2) * tol ^ 2) (hcap : (R + tol) / mu ≤ BCQP.dblMax / 40) :
    ∃ N : ℕ, ∀ (C C₀ : Sim.Cfg) (pbc : Fin 3 → Bool) (low high : Fin 3 → ℝ) (P₀ B : ℕ → List Sylinder), Sim.Sound C pbc low high P₀ →
      C.ctl.choice ≠ 1 → C.ctl.res = tol → N ≤ C.ctl.maxIte →
      ∀ (k : ℕ) (s : Sim.State), Sim.Run (Sim.Ok pbc low high) id C₀ B C P₀ k s →
      ∀ (pre : Bool) (q : Place.Sys) (ranks : List RankIn) (out : Out) (s' : Sim.State), Sim.Step C id pre s q ranks out s' → C109_Dilute C P₀ pre ranks n mu L R →
      ∃ res, Sim.Converged C id out res := by
  obtain ⟨N, hN⟩ := C109_converges n mu L R tol hmu hml hLR htol hfine ht hcap
  refine ⟨N, fun C C₀ pbc low high P₀ B h hch hres hite k s hr pre q ranks out s' hs hd => ?_⟩
  have hq := hs.prepared h (Sim.run_inv hr)
  obtain ⟨fuel, hrun⟩ := hs.run
  obtain ⟨U, W, hfree, hB⟩ := hd.bounded
  obtain ⟨out', last, h1, h2, h3, h4⟩ := hN (C.mobility pre) C.ctl fuel ranks U W h.viscosity h.dt (C109_step_ready h hs hq hd.size hd.entries) hfree hd.count hd.dilute hB
    hch hres hite
  rw [hrun] at h1
  cases h1
  exact ⟨last.res, last, h2, rfl, by rw [hres]; exact h3, fun h => absurd h hch, h4⟩

/-- C109 with C91 for spheres, without the hypothesis that the solver converged: if every body is a sphere, then after a dilute step of any run in which every body moved
less than its buffer no two bodies, on any ranks and with any periodic image, overlap by more than `dt` times the tolerance. -/
theorem C109_spheres (n : ℕ) (mu L R tol : ℝ) (hmu : 0 < mu) (hml : mu ≤ L) (hLR : L ≤ R) (htol : 0 < tol) (hfine : 10 * dblEps * L ≤ 1)
    (ht : 10 * dblEps * (R + L) ^ 2 ≤ min mu (mu ^ 2) * tol ^ 2) (hcap : (R + tol) / mu ≤ BCQP.dblMax / 40) :
    ∃ N : ℕ, ∀ (C C₀ : Sim.Cfg) (pbc : Fin 3 → Bool) (low high : Fin 3 → ℝ) (P₀ B : ℕ → List Sylinder), Sim.Sound C pbc low high P₀ →
      (∀ b ∈ Sim.all C.place.g.n P₀, Spec.Near.Sphere (Near.EP.copyFromFP (Sim.sized C b))) → C.mob.sylinderFixed = false →
      C.ctl.choice ≠ 1 → C.ctl.res = tol → N ≤ C.ctl.maxIte →
      ∀ (k : ℕ) (s : Sim.State), Sim.Run (Sim.Ok pbc low high) id C₀ B C P₀ k s →
      ∀ (pre : Bool) (q : Place.Sys) (ranks : List RankIn) (out : Out) (s' : Sim.State), Sim.Step C id pre s q ranks out s' → C109_Dilute C P₀ pre ranks n mu L R →
      (∀ x ∈ Sim.all C.place.g.n s'.sys.P, C.mob.dt * x.vel.norm ≤ Spec.Near.Rad (Near.EP.copyFromFP x) * C.place.colBuf) →
      ∀ (r i : ℕ) (o : ℕ × ℕ × Image.Idx) (x : Sylinder) (y : Near.EP), r < C.place.g.n → (s'.sys.P r)[i]? = some x →
        Collide.imageAt C.place s'.sys.P o = some y → Collide.IsImage C.place o → x.gid ≠ y.gid →
        Spec.Near.Rad (Near.EP.copyFromFP x) + Spec.Near.Rad y - C.mob.dt * tol ≤ (x.pos - y.pos).norm := by
  obtain ⟨N, hN⟩ := C109_run n mu L R tol hmu hml hLR htol hfine ht hcap
  refine ⟨N, fun C C₀ pbc low high P₀ B h hsph hfx hch hres hite k s hr pre q ranks out s' hs hd hmv r i o x y hrn hx hy ho hg => ?_⟩
  obtain ⟨res, hc⟩ := hN C C₀ pbc low high P₀ B h hch hres hite k s hr pre q ranks out s' hs hd
  rw [← hres]
  exact C91_spheres h hsph hfx (by rw [hres]; exact htol.le) id k s hr pre q ranks out s' hs res hc hmv r i o x y hrn hx hy ho hg

/-! ### Example -/
namespace Dilute
open NoOverlap

/-- Two spheres that overlap. -/
noncomputable def exContact : Block := { exBlock 0 1 false false with delta0 := -0.03, gamma := 0.03, posI := 0, posJ := 0 }

noncomputable def exRanks (D : Draws) : List RankIn := [ballRank D 7 0 0.4 [[exContact], []], ballRank D 9 1 0.55 [[], []]]

theorem exRanks_ready (D : Draws) : C109_Ready (exRanks D) := by
  have hm : ∀ r ∈ exRanks D, ∃ gid idx x pool, r = ballRank D gid idx x pool := by
    intro r hr
    simp only [exRanks, List.mem_cons, List.not_mem_nil, or_false] at hr
    rcases hr with rfl | rfl <;> exact ⟨_, _, _, _, rfl⟩
  have hlen : ((exRanks D).flatMap RankIn.bodies).length = 2 := rfl
  refine ⟨?_, ?_, ?_, ?_, ?_, ?_⟩
  · intro r hr; obtain ⟨_, _, _, _, rfl⟩ := hm r hr; exact ballRank_ready _ _ _ _ _
  · intro r hr; obtain ⟨_, _, _, _, rfl⟩ := hm r hr; exact List.Perm.refl _
  · intro r hr; obtain ⟨_, _, _, _, rfl⟩ := hm r hr; exact List.Perm.refl _
  · rw [hlen]; norm_num
  · rw [hlen]
    intro r hr
    simp only [exRanks, List.mem_cons, List.not_mem_nil, or_false] at hr
    rcases hr with rfl | rfl <;> refine ⟨?_, ?_, ?_⟩ <;> simp [ballRank, exContact, exBlock]
  · intro g D' s hs
    match g, hs with
    | 0, hs => cases hs; rfl
    | 1, hs => cases hs; rfl
    | g + 2, hs => simp [exRanks, ballRank] at hs

theorem exRanks_free (D : Draws) : C109_Free C88_cfg (exRanks D) (fun _ => 0) fun _ => 0 := by
  intro r hr so hso i D' s hi
  simp only [exRanks, List.mem_cons, List.not_mem_nil, or_false] at hr
  rcases hr with rfl | rfl
  all_goals
    cases i with
    | succ i => simp [ballRank] at hi
    | zero =>
      have := (ball_rest D _ _ _ so hso).1
      rw [this]

theorem exContact_response (D : Draws) : Response C88_cfg.viscosity C88_cfg.dt (C109_bodies (exRanks D)) exContact (2 / (0.54 * Pi)) := by
  have hpi : (0 : ℝ) < Pi := by unfold Pi; norm_num
  refine ⟨fun g => if g = 0 then ⟨1 / (0.54 * Pi), 0, 0⟩ else ⟨-1 / (0.54 * Pi), 0, 0⟩, fun _ => 0, ?_, ?_⟩
  · intro x hx
    have hc : ∀ gid idx y, (ball gid idx y).calcDragCoeff Pi C88_cfg.viscosity = some (0.54 * Pi, 0.54 * Pi, 8 * Pi * 0.09 * 0.09 * 0.09) := by
      intro gid idx y
      have hsp : (ball gid idx y).isSphere = true := by norm_num [ball, Sylinder.make, Sylinder.isSphere]
      unfold Sylinder.calcDragCoeff
      rw [if_pos hsp]
      simp only [ball, Sylinder.make, C88_cfg, C43_cfg, Option.some.injEq, Prod.mk.injEq]
      refine ⟨?_, ?_, ?_⟩ <;> ring
    have hd : ∀ gid idx y, (ball gid idx y).direction = ⟨0, 0, 1⟩ := ball_dir
    have hx : x = ball 7 0 0.4 ∨ x = ball 9 1 0.55 := by
      simpa [C109_bodies, exRanks, ballRank] using hx
    rcases hx with rfl | rfl
    · refine .inr ⟨rfl, _, _, _, hc _ _ _, by positivity, by positivity, by positivity, ?_⟩
      rw [hd]
      refine Prod.ext (V3.ext ?_ ?_ ?_) (V3.ext ?_ ?_ ?_) <;> simp [drag, V3.dot, unitForce, unitTorque, exContact, exBlock, ball, Sylinder.make, V3.cross]
      field_simp
    · refine .inr ⟨rfl, _, _, _, hc _ _ _, by positivity, by positivity, by positivity, ?_⟩
      rw [hd]
      refine Prod.ext (V3.ext ?_ ?_ ?_) (V3.ext ?_ ?_ ?_) <;> simp [drag, V3.dot, unitForce, unitTorque, exContact, exBlock, ball, Sylinder.make, V3.cross]
      field_simp
  · simp [gapRate, yield, exContact, exBlock, V3.dot, V3.cross]
    ring

theorem exContact_bounded (D : Draws) : ∀ b ∈ constraints (exRanks D), C109_Bounded C88_cfg (exRanks D) (fun _ => 0) (fun _ => 0) 1 2 5 b := by
  intro b hb
  have hb : b = exContact := by simpa [constraints, exRanks, ballRank] using hb
  subst hb
  have h1 : (1 : ℝ) ≤ 2 / (0.54 * Pi) ∧ 2 / (0.54 * Pi) ≤ 2 := by
    unfold Pi
    constructor <;> norm_num
  have hg : gapRate (fun _ => 0) (fun _ => 0) exContact = 0 := by simp [gapRate, V3.dot]
  have hbig : (1 : ℝ) ≤ BCQP.dblMax / 20 := by
    unfold BCQP.dblMax
    have : (2 : ℝ) ^ 100 ≤ 2 ^ 1023 := pow_le_pow_right₀ (by norm_num) (by norm_num)
    generalize (2 : ℝ) ^ 1023 = w at *
    norm_num at *
    linarith
  have e1 : exContact.delta0 = -0.03 := rfl
  have e2 : exContact.gamma = 0.03 := rfl
  have e3 : C88_cfg.dt = 1 := rfl
  refine ⟨⟨_, exContact_response D, h1.1, h1.2, ?_⟩, ?_, ?_, ?_⟩
  · rw [e1, e2, e3, hg, abs_le]
    constructor <;> linarith [h1.1, h1.2]
  · rw [e2]; norm_num
  · rw [e2]; norm_num
  · rw [e2]; linarith

/-- Two overlapping spheres on two ranks: the hypotheses of C109 can be met, and the solver removes the overlap. -/
example (D : Draws) : ∃ N : ℕ, ∀ maxIte, N ≤ maxIte → ∃ out last, runStepAll C88_cfg ⟨1 / 10 ^ 5, maxIte, 0⟩ id 0 (exRanks D) = some out ∧
    out.history.getLast? = some last ∧ last.res < 1 / 10 ^ 5 := by
  have hbig : (10 : ℝ) ^ 9 ≤ BCQP.dblMax / 40 := by
    unfold BCQP.dblMax
    have : (2 : ℝ) ^ 100 ≤ 2 ^ 1023 := pow_le_pow_right₀ (by norm_num) (by norm_num)
    generalize (2 : ℝ) ^ 1023 = w at *
    norm_num at *
    linarith
  obtain ⟨N, hN⟩ := C109_converges 1 1 2 5 (1 / 10 ^ 5) (by norm_num) (by norm_num) (by norm_num) (by norm_num) (by unfold dblEps; norm_num)
    (by rw [min_eq_left (by norm_num)]; unfold dblEps; norm_num) (le_trans (by norm_num) hbig)
  refine ⟨N, fun m hm => ?_⟩
  obtain ⟨out, last, h1, h2, h3, -⟩ := hN C88_cfg ⟨1 / 10 ^ 5, m, 0⟩ 0 (exRanks D) _ _ (by norm_num [C88_cfg, C43_cfg]) (by norm_num [C88_cfg, C43_cfg]) (exRanks_ready D)
    (exRanks_free D) rfl (by
      intro i j b b' hi hj hij
      have h2 : (constraints (exRanks D)).length = 1 := rfl
      have h3 := (List.getElem?_eq_some_iff.1 hi).1
      have h4 := (List.getElem?_eq_some_iff.1 hj).1
      omega) (exContact_bounded D) (by norm_num) rfl hm
  exact ⟨out, last, h1, h2, h3⟩

end Dilute

end Verif
