import Verif.Lemmas.Sample
/-! C79: numbers of domains.  C80: `decomposeDomain`.  C81: samples. -/
namespace Verif
open Domain

/-- C79.  For every number of ranks the three numbers of domains multiply to it, are in descending order and positive, and the
position of each rank on the grid is the one its number says, with the last axis running fastest. -/
theorem C79_grid (nproc rank : ℕ) (h : rank < nproc) :
    ∃ nx ny nz a b c, setNumberOfDomain nproc rank = some ([nx, ny, nz], [a, b, c]) ∧ nx * ny * nz = nproc ∧
      1 ≤ nz ∧ nz ≤ ny ∧ ny ≤ nx ∧ a < nx ∧ b < ny ∧ c < nz ∧ (a * ny + b) * nz + c = rank := by
  obtain ⟨l, e, hl, hp, hpos⟩ := factors_spec 3 nproc (by omega) (by omega)
  have hperm := List.mergeSort_perm l (fun a b : ℕ => decide (b ≤ a))
  have hsort := List.pairwise_mergeSort (le := fun a b : ℕ => decide (b ≤ a)) (fun a b c h1 h2 => by simp at *; omega) (fun a b => by simp; omega) l
  have hlen := hperm.length_eq
  have hprod := hperm.prod_eq
  unfold setNumberOfDomain
  rw [e]
  simp only
  generalize l.mergeSort (fun a b : ℕ => decide (b ≤ a)) = np at *
  match np, hlen with
  | [], hlen => simp [hl] at hlen
  | [_], hlen => simp [hl] at hlen
  | [_, _], hlen => simp [hl] at hlen
  | _ :: _ :: _ :: _ :: _, hlen => simp [hl] at hlen
  | [nx, ny, nz], _ =>
    have p1 : 1 ≤ nx := hpos nx (hperm.mem_iff.mp (by simp))
    have p2 : 1 ≤ ny := hpos ny (hperm.mem_iff.mp (by simp))
    have p3 : 1 ≤ nz := hpos nz (hperm.mem_iff.mp (by simp))
    simp only [List.pairwise_cons, List.mem_cons, List.not_mem_nil, or_false, decide_eq_true_eq, forall_eq_or_imp, forall_eq] at hsort
    have hpr : nx * ny * nz = nproc := by
      rw [← hp, ← hprod]
      simp [Nat.mul_assoc]
    have d1 := Nat.div_add_mod rank nz
    have d2 := Nat.div_add_mod (rank / nz) ny
    have hlt : rank / nz / ny < nx := by
      rw [Nat.div_lt_iff_lt_mul p2, Nat.div_lt_iff_lt_mul p3, hpr]
      exact h
    refine ⟨nx, ny, nz, rank / nz / ny % nx, rank / nz % ny, rank % nz, rfl, hpr, p3, hsort.2.1, hsort.1.1, Nat.mod_lt _ p1, Nat.mod_lt _ p2, Nat.mod_lt _ p3, ?_⟩
    rw [Nat.mod_eq_of_lt hlt, Nat.mul_comm (rank / nz / ny) ny, d2, Nat.mul_comm, d1]

example : ∃ nx ny nz a b c, setNumberOfDomain 12 7 = some ([nx, ny, nz], [a, b, c]) ∧ nx * ny * nz = 12 ∧ (a * ny + b) * nz + c = 7 := by
  obtain ⟨nx, ny, nz, a, b, c, h, h1, -, -, -, -, -, -, h2⟩ := C79_grid 12 7 (by omega)
  exact ⟨nx, ny, nz, a, b, c, h, h1, h2⟩

/-- C80.  However often the domains are decomposed, with any samples in the root domain, at least one per rank, and any
smoothing factor: no sample is read that does not exist, and the domains tile the root domain, as slabs of columns. -/
theorem C80_tiling (srt : (V3 → ℝ) → List V3 → List V3) (hsrt : Sorts srt) (c : ℝ) (hc : 0 ≤ c ∧ c ≤ 1) (root : Box) (g : Grid)
    (hx : 1 ≤ g.nx) (hy : 1 ≤ g.ny) (hz : 1 ≤ g.nz) (calls : List (List V3 × (ℕ → Box))) (hne : calls ≠ [])
    (hs : ∀ q ∈ calls, g.n ≤ q.1.length ∧ ∀ p ∈ q.1, Box.Mem p root) (junk : ℕ → Box) :
    ∃ dom, repeated srt c root g calls ⟨true, junk⟩ = some ⟨false, dom⟩ ∧ IsGrid root g dom ∧ Tiles root g.n dom := by
  have key : ∀ (calls : List (List V3 × (ℕ → Box))) (st : State), (st.first = false → IsGrid root g st.dom) → (calls = [] → st.first = false) →
      (∀ q ∈ calls, g.n ≤ q.1.length ∧ ∀ p ∈ q.1, Box.Mem p root) →
      ∃ dom, repeated srt c root g calls st = some ⟨false, dom⟩ ∧ IsGrid root g dom := by
    intro calls
    induction calls with
    | nil =>
      intro st h1 h2 _
      obtain ⟨f, d⟩ := st
      obtain rfl : f = false := h2 rfl
      exact ⟨d, rfl, h1 rfl⟩
    | cons q r ih =>
      intro st h1 _ h3
      obtain ⟨l, tmp⟩ := q
      obtain ⟨s', t', e, -, hg, -⟩ := newDomains_spec srt hsrt root g l tmp hx hy hz (h3 _ (List.mem_cons_self ..)).1 (h3 _ (List.mem_cons_self ..)).2
      have hnew : IsGrid root g (fun i => if st.first then t' i else ⟨mixV c (t' i).low (st.dom i).low, mixV c (t' i).high (st.dom i).high⟩) := by
        cases hf : st.first with
        | true => simpa using hg
        | false => simpa using hg.mix (h1 hf) c hc.1 hc.2
      obtain ⟨dom, e2, hd⟩ := ih ⟨false, _⟩ (fun _ => hnew) (fun _ => rfl) (fun q hq => h3 q (List.mem_cons_of_mem _ hq))
      refine ⟨dom, ?_, hd⟩
      rw [repeated, decompose, e]
      exact e2
  obtain ⟨dom, e, h⟩ := key calls ⟨true, junk⟩ (fun h => by simp at h) (fun h => absurd h hne) hs
  exact ⟨dom, e, h, h.tiles⟩

/-- The unit cube and two samples in it. -/
noncomputable def unitBox : Box := ⟨⟨0, 0, 0⟩, ⟨1, 1, 1⟩⟩
noncomputable def twoSamples : List V3 := [⟨0.7, 0.5, 0.5⟩, ⟨0.2, 0.1, 0.5⟩]

/-- A sort. -/
noncomputable def insertSort (f : V3 → ℝ) (l : List V3) : List V3 := open Classical in l.mergeSort fun p q => decide (f p ≤ f q)

theorem insertSort_sorts : Sorts insertSort := by
  intro f l
  refine ⟨List.mergeSort_perm _ _, ?_⟩
  have := List.pairwise_mergeSort (le := fun p q : V3 => open Classical in decide (f p ≤ f q)) (fun a b c h1 h2 => by simp at *; linarith)
    (fun a b => by simp; exact le_total _ _) l
  simpa [insertSort] using this

theorem twoSamples_in : ∀ p ∈ twoSamples, Box.Mem p unitBox := by
  intro p hp
  simp only [twoSamples, List.mem_cons, List.not_mem_nil, or_false] at hp
  rcases hp with rfl | rfl <;> norm_num [Box.Mem, unitBox]

example : ∃ dom, repeated insertSort 0.5 unitBox ⟨2, 1, 1⟩ [(twoSamples, fun _ => unitBox), (twoSamples, fun _ => unitBox)] ⟨true, fun _ => unitBox⟩ =
    some ⟨false, dom⟩ ∧ Tiles unitBox 2 dom := by
  obtain ⟨dom, h, -, ht⟩ := C80_tiling insertSort insertSort_sorts 0.5 (by norm_num) unitBox ⟨2, 1, 1⟩ (by simp) le_rfl le_rfl
    [(twoSamples, fun _ => unitBox), (twoSamples, fun _ => unitBox)] (by simp)
    (by
      intro q hq
      simp only [List.mem_cons, List.not_mem_nil, or_false, or_self] at hq
      subst hq
      exact ⟨by simp [Grid.n, twoSamples], twoSamples_in⟩) (fun _ => unitBox)
  exact ⟨dom, h, ht⟩

/-- C80.  After the first decomposition every domain, with its boundary, has at least `⌊samples / ranks⌋` samples, and without its
boundary at most `⌈samples / ranks⌉`. -/
theorem C80_balance (srt : (V3 → ℝ) → List V3 → List V3) (hsrt : Sorts srt) (c : ℝ) (root : Box) (g : Grid)
    (hx : 1 ≤ g.nx) (hy : 1 ≤ g.ny) (hz : 1 ≤ g.nz) (samples : List V3) (hn : g.n ≤ samples.length) (hs : ∀ p ∈ samples, Box.Mem p root)
    (tmp junk : ℕ → Box) : ∃ dom, decompose srt c root g samples tmp ⟨true, junk⟩ = some ⟨false, dom⟩ ∧
      ∀ i < g.n, samples.length / g.n ≤ (open Classical in samples.countP fun p => decide (Box.Mem p (dom i))) ∧
        (open Classical in samples.countP fun p => decide (Inside p (dom i))) ≤ (samples.length + g.n - 1) / g.n := by
  classical
  have hpos : 1 ≤ g.n := Nat.mul_pos (Nat.mul_pos hx hy) hz
  obtain ⟨s', t', e, hp, hg, hm⟩ := newDomains_spec srt hsrt root g samples tmp hx hy hz hn hs
  refine ⟨t', by simp [decompose, e], ?_⟩
  have hl := hp.length_eq
  rw [hl] at hm
  intro i hi
  have hA := istart_succ samples.length g.n i hpos hn
  have hB : istart samples.length g.n (i + 1) ≤ samples.length := by
    have := istart_le samples.length g.n hpos hn (show i + 1 ≤ g.n from hi)
    rwa [istart_n _ _ hpos] at this
  have hsl := slice_length s' (istart samples.length g.n i) (istart samples.length g.n (i + 1)) (by omega)
  have hsplit : s' = s'.take (istart samples.length g.n i) ++ slice s' (istart samples.length g.n i) (istart samples.length g.n (i + 1)) ++
      s'.drop (istart samples.length g.n (i + 1)) := by
    have : slice s' (istart samples.length g.n i) (istart samples.length g.n (i + 1)) ++ s'.drop (istart samples.length g.n (i + 1)) =
        s'.drop (istart samples.length g.n i) := by
      have e : s'.drop (istart samples.length g.n (i + 1)) = (s'.drop (istart samples.length g.n i)).drop
          (istart samples.length g.n (i + 1) - istart samples.length g.n i) := by rw [List.drop_drop]; congr 1; omega
      rw [e, slice, List.take_append_drop]
    rw [List.append_assoc, this, List.take_append_drop]
  -- a sample in the interior of domain `i` is in its slice
  have honly : ∀ j p, s'[j]? = some p → Inside p (t' i) → istart samples.length g.n i ≤ j ∧ j < istart samples.length g.n (i + 1) := by
    intro j p hj hin
    have hjl : j < samples.length := by
      obtain ⟨h, -⟩ := List.getElem?_eq_some_iff.mp hj
      omega
    obtain ⟨r, hr, r1, r2⟩ := find_cell (X := fun i => ((istart samples.length g.n i : ℕ) : ℝ)) (n := g.n) (x := (j : ℝ))
      (by simp [istart_zero]) (by simp only [istart_n _ _ hpos]; exact_mod_cast hjl)
    have r1' : istart samples.length g.n r ≤ j := by exact_mod_cast r1
    have r2' : j < istart samples.length g.n (r + 1) := by exact_mod_cast r2
    have := hg.interior hi hr hin (hm r hr p ((mem_slice _ _ _ _).mpr ⟨j, r1', r2', hj⟩))
    subst this
    exact ⟨r1', r2'⟩
  have e1 : istart samples.length g.n (i + 1) - istart samples.length g.n i ≤ (samples.length + g.n - 1) / g.n := by
    have : istart samples.length g.n (i + 1) ≤ istart samples.length g.n i + (samples.length + g.n - 1) / g.n := by
      unfold istart
      have h1 := Nat.div_add_mod (i * samples.length) g.n
      have h2 := Nat.mod_lt (i * samples.length) hpos
      have h3 := Nat.div_add_mod (samples.length + g.n - 1) g.n
      have h4 := Nat.mod_lt (samples.length + g.n - 1) hpos
      have h5 : (i + 1) * samples.length = i * samples.length + samples.length := by ring
      rw [h5]
      refine Nat.le_of_lt_succ ((Nat.div_lt_iff_lt_mul hpos).mpr ?_)
      have h6 : (i * samples.length / g.n + (samples.length + g.n - 1) / g.n).succ * g.n = g.n * (i * samples.length / g.n) +
        g.n * ((samples.length + g.n - 1) / g.n) + g.n := by rw [Nat.succ_mul]; ring
      omega
    omega
  have e2 : samples.length / g.n ≤ istart samples.length g.n (i + 1) - istart samples.length g.n i := by
    have : istart samples.length g.n i + samples.length / g.n ≤ istart samples.length g.n (i + 1) := by
      unfold istart
      have h5 : (i + 1) * samples.length = i * samples.length + samples.length := by ring
      rw [h5]
      exact Nat.add_div_le_add_div _ _ _
    omega
  rw [← hp.countP_eq, ← hp.countP_eq]
  constructor
  · refine e2.trans ?_
    rw [← hsl, hsplit, List.countP_append, List.countP_append, ← hsplit]
    have : List.countP (fun p => decide (Box.Mem p (t' i))) (slice s' (istart samples.length g.n i) (istart samples.length g.n (i + 1))) =
        (slice s' (istart samples.length g.n i) (istart samples.length g.n (i + 1))).length := by
      rw [List.countP_eq_length]
      intro p hp
      simpa using hm i hi p hp
    omega
  · refine le_trans ?_ e1
    rw [← hsl]
    conv_lhs => rw [hsplit]
    rw [List.countP_append, List.countP_append]
    have z1 : List.countP (fun p => decide (Inside p (t' i))) (s'.take (istart samples.length g.n i)) = 0 := by
      rw [List.countP_eq_zero]
      intro p hp
      obtain ⟨j, hj⟩ := List.mem_iff_getElem?.mp hp
      rw [List.getElem?_take] at hj
      split_ifs at hj with c
      simp only [decide_eq_true_eq]
      intro hin
      have := honly j p hj hin
      omega
    have z2 : List.countP (fun p => decide (Inside p (t' i))) (s'.drop (istart samples.length g.n (i + 1))) = 0 := by
      rw [List.countP_eq_zero]
      intro p hp
      obtain ⟨j, hj⟩ := List.mem_iff_getElem?.mp hp
      rw [List.getElem?_drop] at hj
      simp only [decide_eq_true_eq]
      intro hin
      have := honly _ p hj hin
      omega
    rw [z1, z2]
    have := List.countP_le_length (p := fun p => decide (Inside p (t' i))) (l := slice s' (istart samples.length g.n i) (istart samples.length g.n (i + 1)))
    omega

example : ∃ dom, decompose insertSort 1 unitBox ⟨2, 1, 1⟩ twoSamples (fun _ => unitBox) ⟨true, fun _ => unitBox⟩ = some ⟨false, dom⟩ ∧
    1 ≤ (open Classical in twoSamples.countP fun p => decide (Box.Mem p (dom 1))) := by
  obtain ⟨dom, h, hb⟩ := C80_balance insertSort insertSort_sorts 1 unitBox ⟨2, 1, 1⟩ (by simp) le_rfl le_rfl twoSamples (by simp [Grid.n, twoSamples])
    twoSamples_in (fun _ => unitBox) (fun _ => unitBox)
  exact ⟨dom, h, (hb 1 (by simp [Grid.n])).1⟩

theorem sortRange_length {srt : List V3 → List V3} (hsrt : ∀ l, (srt l).Perm l) {s s' : List V3} {a : ℕ} {b : ℤ} (h : sortRange srt s a b = some s') :
    s'.length = s.length := by
  unfold sortRange at h
  split_ifs at h with c
  simp only [Option.some.injEq] at h
  rw [← h]
  simp [(hsrt _).length_eq]
  omega

theorem loopY_length {srt : (V3 → ℝ) → List V3 → List V3} (hsrt : Sorts srt) {root : Box} {g : Grid} : ∀ k ix s t s' t',
    loopY srt root g k ix s t = some (s', t') → s'.length = s.length := by
  intro k
  induction k with
  | zero =>
    intro ix s t s' t' h
    simp only [loopY, Option.some.injEq, Prod.mk.injEq] at h
    rw [h.1]
  | succ k ih =>
    intro ix s t s' t' h
    rw [loopY] at h
    split at h
    · simp at h
    · rename_i s1 h1
      split at h
      · simp at h
      · rw [ih _ _ _ _ _ h, sortRange_length (fun l => (hsrt _ l).1) h1]

/-- The loop over the parts of the first block reads the sample before the first one, if the first part is empty and the block is
not. -/
theorem boundary_empty (f : V3 → ℝ) (lo hi : ℝ) (np : ℤ) (s : List V3) (hnp : 1 ≤ np) : boundary f lo hi np s 0 0 (-1) = none := by
  unfold boundary
  rw [if_pos rfl, if_neg (by omega)]
  simp [middle, sampleAt]

/-- C80 is false with fewer samples than ranks (fewer bodies than ranks): whatever the samples are and however many there are, the
decomposition reads outside the array. -/
theorem C80_few_samples_false (srt : (V3 → ℝ) → List V3 → List V3) (hsrt : Sorts srt) (c : ℝ) (root : Box) (g : Grid) (samples : List V3)
    (h1 : 1 ≤ samples.length) (h2 : samples.length < g.n) (tmp : ℕ → Box) (st : State) : decompose srt c root g samples tmp st = none := by
  have hn : 1 ≤ g.n := by omega
  have hx : 1 ≤ g.nx := by
    rcases Nat.eq_zero_or_pos g.nx with h | h
    · simp [Grid.n, h] at h2
    · exact h
  have hy : 1 ≤ g.ny := by
    rcases Nat.eq_zero_or_pos g.ny with h | h
    · simp [Grid.n, h] at h2
    · exact h
  have hz : 1 ≤ g.nz := by
    rcases Nat.eq_zero_or_pos g.nz with h | h
    · simp [Grid.n, h] at h2
    · exact h
  have hw : 1 ≤ g.ny * g.nz := Nat.mul_pos hy hz
  suffices h : newDomains srt root g samples tmp = none by simp [decompose, h]
  have hl := (hsrt V3.x samples).1.length_eq
  unfold newDomains
  simp only
  generalize srt V3.x samples = s at hl
  obtain ⟨a, ha⟩ : ∃ a, g.nx = a + 1 := ⟨g.nx - 1, by omega⟩
  obtain ⟨b, hb⟩ : ∃ b, g.ny = b + 1 := ⟨g.ny - 1, by omega⟩
  obtain ⟨d, hd⟩ : ∃ d, g.nz = d + 1 := ⟨g.nz - 1, by omega⟩
  have hwn : g.ny * g.nz ≤ g.n := by
    rw [Grid.n, Nat.mul_assoc]
    exact Nat.le_mul_of_pos_left _ hx
  have hzw : g.nz ≤ g.ny * g.nz := Nat.le_mul_of_pos_left _ hy
  by_cases c1 : istart s.length g.n (g.ny * g.nz) = 0
  · have : loopX root g s g.nx 0 tmp = none := by
      rw [ha, loopX]
      simp only [Nat.zero_mul, Nat.zero_add, Nat.one_mul]
      rw [iend_eq _ _ _ (by omega), show g.ny * g.nz - 1 + 1 = g.ny * g.nz by omega, c1, istart_zero,
        show ((0 : ℕ) : ℤ) - 1 = -1 by norm_num, Nat.cast_zero, boundary_empty _ _ _ _ _ (by omega)]
    rw [this]
  · cases e1 : loopX root g s g.nx 0 tmp with
    | none => rfl
    | some t1 =>
      simp only
      by_cases c2 : istart s.length g.n g.nz = 0
      · have : loopY srt root g g.nx 0 s t1 = none := by
          rw [ha, loopY]
          split
          · rfl
          · rename_i s1 hs1
            have hl1 := sortRange_length (fun l => (hsrt _ l).1) hs1
            have : loopYy root g s1 0 g.ny 0 t1 = none := by
              conv_lhs => rw [hb]
              rw [loopYy]
              simp only [Nat.zero_mul, Nat.zero_add, Nat.one_mul]
              rw [hl1, iend_eq _ _ _ (by omega), show g.ny * g.nz - 1 + 1 = g.ny * g.nz by omega, iend_eq _ _ _ (by omega),
                show g.nz - 1 + 1 = g.nz by omega, c2, istart_zero, Nat.cast_zero, sub_zero, sub_zero, sub_zero, zero_sub,
                boundary_empty _ _ _ _ _ (by omega)]
            rw [this]
        rw [this]
      · cases e2 : loopY srt root g g.nx 0 s t1 with
        | none => rfl
        | some r =>
          obtain ⟨s2, t2⟩ := r
          simp only
          have hl2 := loopY_length hsrt _ _ _ _ _ _ e2
          have c3 : istart s.length g.n 1 = 0 := by
            unfold istart
            rw [Nat.one_mul]
            exact Nat.div_eq_of_lt (by omega)
          have hz2 : 1 < g.nz := by
            rcases Nat.lt_or_ge 1 g.nz with h | h
            · exact h
            · exfalso
              have : g.nz = 1 := by omega
              rw [this] at c2
              exact c2 c3
          rw [ha, loopZ]
          have : loopZy srt root g 0 g.ny 0 s2 t2 = none := by
            conv_lhs => rw [hb]
            rw [loopZy]
            split
            · rfl
            · rename_i s3 hs3
              have hl3 := sortRange_length (fun l => (hsrt _ l).1) hs3
              have : ∀ t, loopZz root g s3 (0 * g.ny * g.nz + 0 * g.nz) (0 * g.ny * g.nz + (0 + 1) * g.nz) g.nz 0 t = none := by
                intro t
                simp only [Nat.zero_mul, Nat.zero_add, Nat.one_mul]
                conv_lhs => rw [hd]
                rw [loopZz]
                simp only [Nat.add_zero, ← hd]
                rw [hl3, hl2, iend_eq _ _ _ (by omega), show g.nz - 1 + 1 = g.nz by omega, iend_eq _ _ _ (by omega), Nat.zero_add, c3, istart_zero,
                  Nat.cast_zero, sub_zero, sub_zero, sub_zero, zero_sub, boundary_empty _ _ _ _ _ (by omega)]
              rw [this]
          rw [this]

example : decompose insertSort 1 unitBox ⟨2, 1, 1⟩ [⟨0.5, 0.5, 0.5⟩] (fun _ => unitBox) ⟨true, fun _ => unitBox⟩ = none :=
  C80_few_samples_false insertSort insertSort_sorts 1 unitBox ⟨2, 1, 1⟩ [⟨0.5, 0.5, 0.5⟩] (by simp) (by simp [Grid.n]) _ _

/-- C81.  `getSampleParticle` leaves the particles where they were; the samples are positions of different particles of the rank,
as many as intended, at most all. -/
theorem C81_samples {α : Type} (pos : α → V3) (u : ℕ → ℝ) (hu : ∀ i, 0 ≤ u i ∧ u i < 1) (all target : ℕ) (hall : 1 ≤ all) (l : List α) :
    ∃ samples, getSample pos u all target l = some (samples, l) ∧ samples.length = min ⌊((l.length : ℝ) * target) / all⌋₊ l.length ∧
      samples.Subperm (l.map pos) := by
  have hn : sampleNumber l.length all target = some (min ⌊((l.length : ℝ) * target) / all⌋₊ l.length) := by
    unfold sampleNumber
    rw [if_neg (by omega)]
    simp only [Option.some.injEq]
    split_ifs <;> omega
  exact getSample_spec pos u hu all target l _ hn

example : ∃ samples, getSample id (fun _ => 0.9) 2 400 twoSamples = some (samples, twoSamples) ∧ samples.length = 2 := by
  obtain ⟨s, h, hl, -⟩ := C81_samples id (fun _ => 0.9) (fun _ => by norm_num) 2 400 (by omega) twoSamples
  refine ⟨s, h, ?_⟩
  rw [hl]
  have : ⌊(((twoSamples.length : ℕ) : ℝ) * ((400 : ℕ) : ℝ)) / ((2 : ℕ) : ℝ)⌋₊ = 400 := by
    norm_num [twoSamples]
  rw [this]
  rfl

/-- The numbers of samples of the ranks, whose numbers of particles are `ns`. -/
noncomputable def sampleNumbers (ns : List ℕ) (target : ℕ) : Option (List ℕ) := ns.mapM fun m => sampleNumber m ns.sum target

/-- C81.  The samples of all ranks fit into the buffer of `target` elements; and if there are at least as many particles as ranks, and
two samples per rank are wanted or more, there are at least as many samples as ranks. -/
theorem C81_total (ns : List ℕ) (target : ℕ) (hall : 1 ≤ ns.sum) : ∃ ks, sampleNumbers ns target = some ks ∧ ks.length = ns.length ∧ ks.sum ≤ target ∧
    (ns.length ≤ ns.sum → 2 * ns.length ≤ target → ns.length ≤ ks.sum) := by
  have hA : (0 : ℝ) < ns.sum := by exact_mod_cast hall
  have key : ∀ l : List ℕ, ∃ ks, l.mapM (fun m => sampleNumber m ns.sum target) = some ks ∧ ks.length = l.length ∧
      ((ks.sum : ℕ) : ℝ) ≤ (l.sum : ℝ) * target / ns.sum ∧ (ns.sum ≤ target → ks.sum = l.sum) ∧
      (target ≤ ns.sum → (l.sum : ℝ) * target / ns.sum ≤ ks.sum + l.length) := by
    intro l
    induction l with
    | nil => exact ⟨[], rfl, rfl, by simp, fun _ => rfl, fun _ => by simp⟩
    | cons m l ih =>
      obtain ⟨ks, e, h1, h2, h3, h4⟩ := ih
      obtain ⟨n, e', k1, k2, k3, k4⟩ := sampleNumber_spec m ns.sum target hall
      refine ⟨n :: ks, by simp [List.mapM_cons, e, e'], by simp [h1], ?_, ?_, ?_⟩
      · simp only [List.sum_cons, Nat.cast_add]
        rw [add_mul, add_div]
        exact add_le_add k2 h2
      · intro h
        simp only [List.sum_cons]
        rw [k3 h, h3 h]
      · intro h
        simp only [List.sum_cons, Nat.cast_add, List.length_cons, Nat.cast_one]
        rw [add_mul, add_div]
        have := k4 h
        have := h4 h
        linarith
  obtain ⟨ks, e, h1, h2, h3, h4⟩ := key ns
  rw [mul_div_assoc, mul_div_cancel₀ _ hA.ne'] at h2
  refine ⟨ks, e, h1, by exact_mod_cast h2, ?_⟩
  intro ha hb
  rcases Nat.le_total ns.sum target with c | c
  · rw [h3 c]
    exact ha
  · have := h4 c
    rw [mul_div_assoc, mul_div_cancel₀ _ hA.ne'] at this
    have : target ≤ ks.sum + ns.length := by exact_mod_cast this
    omega

example : ∃ ks, sampleNumbers [3, 0, 1] 600 = some ks ∧ 3 ≤ ks.sum := by
  obtain ⟨ks, h, -, -, h2⟩ := C81_total [3, 0, 1] 600 (by simp)
  exact ⟨ks, h, h2 (by simp) (by simp)⟩

/-- C81 is false without any particle: the number of samples is `0/0`. -/
theorem C81_empty_false {α : Type} (pos : α → V3) (u : ℕ → ℝ) (target : ℕ) : getSample pos u 0 target ([] : List α) = none := by
  simp [getSample, sampleNumber]

end Verif
