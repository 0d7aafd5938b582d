import Verif.Spec.Image
import Verif.Lemmas.Box
import Mathlib.Tactic.Linarith
import Mathlib.Tactic.Positivity
import Mathlib.Algebra.Order.Archimedean.Basic
import Mathlib.Data.Int.Basic
/-! Lemmas on images. -/
namespace Verif.Image

/-- The level an image is found in. -/
def Idx.lev (s : Idx) : ℕ := max s.x.natAbs (max s.y.natAbs s.z.natAbs)

theorem mem_span (lev : ℕ) (i : ℤ) : i ∈ span lev ↔ |i| ≤ lev := by
  rw [span, List.mem_map, abs_le]
  constructor
  · rintro ⟨k, hk, rfl⟩
    rw [List.mem_range] at hk
    omega
  · rintro ⟨h1, h2⟩
    exact ⟨(i + lev).toNat, List.mem_range.mpr (by omega), by omega⟩

theorem span_nodup (lev : ℕ) : (span lev).Nodup :=
  List.Nodup.map (fun a b h => by simpa using h) List.nodup_range

theorem shell_nodup (pa : Axes) (lev : ℕ) : (shell pa lev).Nodup := by
  apply List.Nodup.filter
  rw [List.nodup_flatMap]
  refine ⟨fun ix _ => ?_, ?_⟩
  · rw [List.nodup_flatMap]
    refine ⟨fun iy _ => List.Nodup.map (fun a b h => by simpa using h) (span_nodup _), ?_⟩
    refine (span_nodup _).imp (fun {a b} hab => ?_)
    intro s h1 h2
    rw [List.mem_map] at h1 h2
    obtain ⟨_, _, rfl⟩ := h1
    obtain ⟨_, _, h⟩ := h2
    exact hab (congrArg Idx.y h).symm
  · refine (span_nodup _).imp (fun {a b} hab => ?_)
    intro s h1 h2
    rw [List.mem_flatMap] at h1 h2
    obtain ⟨_, _, h1⟩ := h1
    obtain ⟨_, _, h2⟩ := h2
    rw [List.mem_map] at h1 h2
    obtain ⟨_, _, rfl⟩ := h1
    obtain ⟨_, _, h⟩ := h2
    exact hab (congrArg Idx.x h).symm

theorem mem_shell (pa : Axes) (lev : ℕ) (hl : 1 ≤ lev) (s : Idx) :
    s ∈ shell pa lev ↔ Allowed pa s ∧ s.lev = lev := by
  obtain ⟨x, y, z⟩ := s
  obtain ⟨px, py, pz⟩ := pa
  rw [shell, List.mem_filter]
  simp only [List.mem_flatMap, List.mem_map, Idx.mk.injEq, mem_span, Allowed, Idx.lev]
  have : (∃ a, |a| ≤ (levOf px lev : ℤ) ∧ ∃ b, |b| ≤ (levOf py lev : ℤ) ∧ ∃ c, |c| ≤ (levOf pz lev : ℤ) ∧ a = x ∧ b = y ∧ c = z) ↔
      (|x| ≤ (levOf px lev : ℤ) ∧ |y| ≤ (levOf py lev : ℤ) ∧ |z| ≤ (levOf pz lev : ℤ)) := by
    constructor
    · rintro ⟨a, ha, b, hb, c, hc, rfl, rfl, rfl⟩; exact ⟨ha, hb, hc⟩
    · rintro ⟨ha, hb, hc⟩; exact ⟨x, ha, y, hb, z, hc, rfl, rfl, rfl⟩
  rw [this, decide_eq_true_eq, skipped]
  clear this
  have hx := Int.abs_eq_natAbs x
  have hy := Int.abs_eq_natAbs y
  have hz := Int.abs_eq_natAbs z
  cases px <;> cases py <;> cases pz <;> simp [levOf] <;> omega

theorem levelImages_nodup (pa : Axes) (size : V3) (my target : Box) (lev : ℕ) :
    (levelImages pa size my target lev).Nodup := (shell_nodup pa lev).filter _

theorem mem_levelImages (pa : Axes) (size : V3) (my target : Box) (lev : ℕ) (hl : 1 ≤ lev) (s : Idx) :
    s ∈ levelImages pa size my target lev ↔
      (Allowed pa s ∧ my.overlapped (target.shift (shiftOf size s))) ∧ s.lev = lev := by
  rw [levelImages, List.mem_filter, mem_shell pa lev hl]
  simp only [decide_eq_true_eq]
  tauto

/-- The image `s` is listed in the end. -/
def Listed (pa : Axes) (size : V3) (my target : Box) (s : Idx) : Prop :=
  Allowed pa s ∧ my.overlapped (target.shift (shiftOf size s))

theorem imageLoop_spec (pa : Axes) (size : V3) (my target : Box) (N : ℕ)
    (hend : ∀ s, Listed pa size my target s → s.lev ≤ N)
    (hdown : ∀ s, Listed pa size my target s → 2 ≤ s.lev → ∃ s', Listed pa size my target s' ∧ s'.lev + 1 = s.lev) :
    ∀ (k lev : ℕ), 1 ≤ lev → N + 1 ≤ lev + k → ∀ fuel, k + 1 ≤ fuel → ∃ l, imageLoop pa size my target fuel lev = some l ∧ l.Nodup ∧
      ∀ s, s ∈ l ↔ Listed pa size my target s ∧ lev ≤ s.lev := by
  have hgap : ∀ lev, 1 ≤ lev → levelImages pa size my target lev = [] → ∀ s, Listed pa size my target s → s.lev < lev := by
    intro lev hlev hnil
    have key : ∀ m s, Listed pa size my target s → s.lev ≠ lev + m := by
      intro m
      induction m with
      | zero =>
        intro s hs he
        have : s ∈ levelImages pa size my target lev := (mem_levelImages pa size my target lev hlev s).mpr ⟨hs, he⟩
        rw [hnil] at this
        exact absurd this (List.not_mem_nil)
      | succ m ih =>
        intro s hs he
        obtain ⟨s', h1, h2⟩ := hdown s hs (by omega)
        exact ih s' h1 (by omega)
    intro s hs
    by_contra hc
    exact key (s.lev - lev) s hs (by omega)
  intro k
  induction k with
  | zero =>
    intro lev hlev hk fuel hf
    obtain ⟨fuel, rfl⟩ : ∃ f, fuel = f + 1 := ⟨fuel - 1, by omega⟩
    have hnil : levelImages pa size my target lev = [] := by
      rw [List.eq_nil_iff_forall_not_mem]
      intro s hs
      rw [mem_levelImages pa size my target lev hlev] at hs
      have := hend s hs.1
      have := hs.2
      omega
    refine ⟨[], ?_, List.nodup_nil, fun s => ?_⟩
    · rw [imageLoop]; simp [hnil]
    · simp only [List.not_mem_nil, false_iff, not_and]
      intro hs
      have := hgap lev hlev hnil s hs
      omega
  | succ k ih =>
    intro lev hlev hk fuel hf
    obtain ⟨fuel, rfl⟩ : ∃ f, fuel = f + 1 := ⟨fuel - 1, by omega⟩
    by_cases hnil : levelImages pa size my target lev = []
    · refine ⟨[], ?_, List.nodup_nil, fun s => ?_⟩
      · rw [imageLoop]; simp [hnil]
      · simp only [List.not_mem_nil, false_iff, not_and]
        intro hs
        have := hgap lev hlev hnil s hs
        omega
    · obtain ⟨l, h1, h2, h3⟩ := ih (lev + 1) (by omega) (by omega) fuel (by omega)
      refine ⟨levelImages pa size my target lev ++ l, ?_, ?_, fun s => ?_⟩
      · rw [imageLoop, h1]; simp [hnil]
      · rw [List.nodup_append]
        refine ⟨levelImages_nodup .., h2, fun a ha b hb hab => ?_⟩
        subst hab
        rw [mem_levelImages pa size my target lev hlev] at ha
        have := ((h3 a).mp hb).2
        have := ha.2
        omega
      · rw [List.mem_append, mem_levelImages pa size my target lev hlev, h3]
        unfold Listed
        constructor
        · rintro (⟨h, h'⟩ | ⟨h, h'⟩)
          · exact ⟨h, by omega⟩
          · exact ⟨h, by omega⟩
        · rintro ⟨h, h'⟩
          by_cases he : s.lev = lev
          · exact Or.inl ⟨h, he⟩
          · exact Or.inr ⟨h, by omega⟩

theorem overlapped_shift_iff (my target : Box) (size : V3) (s : Idx) : my.overlapped (target.shift (shiftOf size s)) ↔
    (my.low.x ≤ target.high.x + s.x * size.x ∧ target.low.x + s.x * size.x ≤ my.high.x) ∧
    (my.low.y ≤ target.high.y + s.y * size.y ∧ target.low.y + s.y * size.y ≤ my.high.y) ∧
    (my.low.z ≤ target.high.z + s.z * size.z ∧ target.low.z + s.z * size.z ≤ my.high.z) := by
  simp only [Box.overlapped, Box.shift, shiftOf, V3.add_x, V3.add_y, V3.add_z, not_or, not_lt]
  tauto

/-- One coordinate moved one box length towards the centre. -/
def down (N : ℕ) (i : ℤ) : ℤ := if i.natAbs = N then (if 0 ≤ i then i - 1 else i + 1) else i

theorem down_abs (N : ℕ) (hN : 2 ≤ N) (i : ℤ) (hi : i.natAbs ≤ N) :
    (down N i).natAbs = (if i.natAbs = N then N - 1 else i.natAbs) := by
  unfold down
  split_ifs <;> omega

theorem down_mem {L mlo mhi tlo thi rlo : ℝ} (hL : 0 < L) (h1 : mlo ≤ rlo + L) (h2 : rlo ≤ mhi) (h3 : rlo ≤ thi)
    (h4 : tlo ≤ rlo + L) (N : ℕ) (hN : 2 ≤ N) (i : ℤ) (ha : mlo ≤ thi + i * L) (hb : tlo + i * L ≤ mhi) :
    mlo ≤ thi + (down N i : ℤ) * L ∧ tlo + (down N i : ℤ) * L ≤ mhi := by
  unfold down
  split_ifs with c1 c2
  · have : (2 : ℝ) ≤ i := by exact_mod_cast (by omega : (2 : ℤ) ≤ i)
    push_cast
    constructor <;> nlinarith
  · have : (i : ℝ) ≤ -2 := by exact_mod_cast (by omega : i ≤ (-2 : ℤ))
    push_cast
    constructor <;> nlinarith
  · exact ⟨ha, hb⟩

/-- A bound for one loop variable. -/
theorem index_bound {L mlo mhi tlo thi : ℝ} (hL : 0 < L) : ∃ N : ℕ, ∀ i : ℤ, mlo ≤ thi + i * L → tlo + i * L ≤ mhi →
    i.natAbs ≤ N := by
  obtain ⟨N1, h1⟩ := exists_nat_ge ((thi - mlo) / L)
  obtain ⟨N2, h2⟩ := exists_nat_ge ((mhi - tlo) / L)
  refine ⟨max N1 N2, fun i ha hb => ?_⟩
  rw [div_le_iff₀ hL] at h1 h2
  have e1 : (-(N1 : ℝ)) ≤ i := by
    have : (-(N1 : ℝ)) * L ≤ i * L := by linarith
    exact le_of_mul_le_mul_right this hL
  have e2 : (i : ℝ) ≤ N2 := by
    have : (i : ℝ) * L ≤ N2 * L := by linarith
    exact le_of_mul_le_mul_right this hL
  have e1' : -(N1 : ℤ) ≤ i := by exact_mod_cast e1
  have e2' : i ≤ (N2 : ℤ) := by exact_mod_cast e2
  omega

theorem axis_bound (p : Bool) {L mlo mhi tlo thi : ℝ} (hL : p = true → 0 < L) : ∃ N : ℕ, ∀ i : ℤ, (p = false → i = 0) →
    mlo ≤ thi + i * L → tlo + i * L ≤ mhi → i.natAbs ≤ N := by
  cases p with
  | false => exact ⟨0, fun i h _ _ => by rw [h rfl]; simp⟩
  | true =>
    obtain ⟨N, hN⟩ := index_bound (mlo := mlo) (mhi := mhi) (tlo := tlo) (thi := thi) (hL rfl)
    exact ⟨N, fun i _ h1 h2 => hN i h1 h2⟩

theorem listed_bound (pa : Axes) (size : V3) (my target : Box) (hL : Extent pa size) :
    ∃ N, ∀ s, Listed pa size my target s → s.lev ≤ N := by
  obtain ⟨N1, h1⟩ := axis_bound pa.x (mlo := my.low.x) (mhi := my.high.x) (tlo := target.low.x) (thi := target.high.x) hL.1
  obtain ⟨N2, h2⟩ := axis_bound pa.y (mlo := my.low.y) (mhi := my.high.y) (tlo := target.low.y) (thi := target.high.y) hL.2.1
  obtain ⟨N3, h3⟩ := axis_bound pa.z (mlo := my.low.z) (mhi := my.high.z) (tlo := target.low.z) (thi := target.high.z) hL.2.2
  refine ⟨max N1 (max N2 N3), fun s hs => ?_⟩
  obtain ⟨⟨a1, a2, a3⟩, ho⟩ := hs
  rw [overlapped_shift_iff] at ho
  have := h1 s.x a1 ho.1.1 ho.1.2
  have := h2 s.y a2 ho.2.1.1 ho.2.1.2
  have := h3 s.z a3 ho.2.2.1 ho.2.2.2
  unfold Idx.lev
  omega

theorem down_axis (p : Bool) {L mlo mhi tlo thi rlo rhi : ℝ} (hL : p = true → 0 < L) (hr : rhi = rlo + L)
    (h1 : p = true → mlo ≤ rhi ∧ rlo ≤ mhi) (h2 : p = true → tlo ≤ rhi ∧ rlo ≤ thi) (N : ℕ) (hN : 2 ≤ N) (i : ℤ)
    (h0 : p = false → i = 0) (ha : mlo ≤ thi + i * L) (hb : tlo + i * L ≤ mhi) :
    (p = false → down N i = 0) ∧ mlo ≤ thi + (down N i : ℤ) * L ∧ tlo + (down N i : ℤ) * L ≤ mhi := by
  cases p with
  | false =>
    obtain rfl := h0 rfl
    have : down N 0 = 0 := by
      unfold down; rw [if_neg]; simp; omega
    rw [this]
    exact ⟨fun _ => rfl, ha, hb⟩
  | true =>
    subst hr
    exact ⟨fun h => by simp at h, down_mem (hL rfl) (h1 rfl).1 (h1 rfl).2 (h2 rfl).2 (h2 rfl).1 N hN i ha hb⟩

theorem listed_down (pa : Axes) (root my target : Box) (hL : Extent pa (root.high - root.low)) (hm : Touches pa my root)
    (ht : Touches pa target root) (s : Idx) (hs : Listed pa (root.high - root.low) my target s) (h2 : 2 ≤ s.lev) :
    ∃ s', Listed pa (root.high - root.low) my target s' ∧ s'.lev + 1 = s.lev := by
  obtain ⟨⟨a1, a2, a3⟩, ho⟩ := hs
  rw [overlapped_shift_iff] at ho
  obtain ⟨⟨x1, x2⟩, ⟨y1, y2⟩, z1, z2⟩ := ho
  obtain ⟨bx, cx, dx⟩ := down_axis pa.x hL.1 (rhi := root.high.x) (rlo := root.low.x) (by simp) hm.1 ht.1 s.lev h2 s.x a1 x1 x2
  obtain ⟨bY, cy, dy⟩ := down_axis pa.y hL.2.1 (rhi := root.high.y) (rlo := root.low.y) (by simp) hm.2.1 ht.2.1 s.lev h2 s.y a2 y1 y2
  obtain ⟨bz, cz, dz⟩ := down_axis pa.z hL.2.2 (rhi := root.high.z) (rlo := root.low.z) (by simp) hm.2.2 ht.2.2 s.lev h2 s.z a3 z1 z2
  refine ⟨⟨down s.lev s.x, down s.lev s.y, down s.lev s.z⟩, ⟨⟨bx, bY, bz⟩, ?_⟩, ?_⟩
  · rw [overlapped_shift_iff]
    exact ⟨⟨cx, dx⟩, ⟨cy, dy⟩, cz, dz⟩
  · have e1 := down_abs s.lev h2 s.x (by unfold Idx.lev; omega)
    have e2 := down_abs s.lev h2 s.y (by unfold Idx.lev; omega)
    have e3 := down_abs s.lev h2 s.z (by unfold Idx.lev; omega)
    have h : (Idx.mk (down s.lev s.x) (down s.lev s.y) (down s.lev s.z)).lev =
      max (down s.lev s.x).natAbs (max (down s.lev s.y).natAbs (down s.lev s.z).natAbs) := rfl
    rw [h, e1, e2, e3]
    have hd : s.lev = max s.x.natAbs (max s.y.natAbs s.z.natAbs) := rfl
    split_ifs <;> omega

theorem shiftOf_zero (size : V3) : shiftOf size ⟨0, 0, 0⟩ = 0 := by
  ext <;> simp [shiftOf]

theorem shift_zero (b : Box) : b.shift 0 = b := by
  ext <;> simp [Box.shift]

theorem lev_eq_zero (s : Idx) : s.lev = 0 ↔ s = ⟨0, 0, 0⟩ := by
  obtain ⟨x, y, z⟩ := s
  simp only [Idx.lev, Idx.mk.injEq]
  omega

theorem imageLoop_mono (pa : Axes) (size : V3) (my target : Box) : ∀ (fuel lev : ℕ) (l : List Idx),
    imageLoop pa size my target fuel lev = some l → ∀ fuel', fuel ≤ fuel' → imageLoop pa size my target fuel' lev = some l := by
  intro fuel
  induction fuel with
  | zero => intro lev l h; simp [imageLoop] at h
  | succ fuel ih =>
    intro lev l h fuel' hf
    obtain ⟨f, rfl⟩ : ∃ f, fuel' = f + 1 := ⟨fuel' - 1, by omega⟩
    rw [imageLoop] at h ⊢
    split_ifs at h ⊢ with hc
    · exact h
    · cases hr : imageLoop pa size my target fuel (lev + 1) with
      | none => rw [hr] at h; simp at h
      | some rest => rw [hr] at h; rw [ih _ _ hr f (by omega)]; exact h

/-- The images that are listed. -/
theorem imageShifts_spec (pa : Axes) (hp : pa.some) (root my target : Box) (hL : Extent pa (root.high - root.low))
    (hm : Touches pa my root) (ht : Touches pa target root) :
    ∃ N S, (∀ fuel, N ≤ fuel → imageShifts pa (root.high - root.low) my target fuel = some S) ∧ S.Nodup ∧
      (∀ s, s ∈ S ↔ Listed pa (root.high - root.low) my target s) ∧ (my.overlapped target → S.head? = some ⟨0, 0, 0⟩) := by
  obtain ⟨N, hN⟩ := listed_bound pa (root.high - root.low) my target hL
  obtain ⟨l, h1, h2, h3⟩ := imageLoop_spec pa (root.high - root.low) my target N hN
    (fun s hs h => listed_down pa root my target hL hm ht s hs h) N 1 (le_refl _) (by omega) (N + 1) (le_refl _)
  have hz : Listed pa (root.high - root.low) my target ⟨0, 0, 0⟩ ↔ my.overlapped target := by
    rw [Listed, shiftOf_zero, shift_zero]
    simp [Allowed]
  have hnp : ¬ (pa.x = false ∧ pa.y = false ∧ pa.z = false) := by
    rintro ⟨e1, e2, e3⟩
    rcases hp with h | h | h
    · rw [e1] at h; cases h
    · rw [e2] at h; cases h
    · rw [e3] at h; cases h
  by_cases ho : my.overlapped target
  · refine ⟨N + 1, ⟨0, 0, 0⟩ :: l, fun fuel hf => ?_, ?_, fun s => ?_, fun _ => rfl⟩
    · rw [imageShifts, if_neg hnp, imageLoop_mono _ _ _ _ _ _ _ h1 fuel hf]
      simp [ho]
    · rw [List.nodup_cons]
      refine ⟨fun h => ?_, h2⟩
      have := ((h3 _).mp h).2
      have := (lev_eq_zero ⟨0, 0, 0⟩).mpr rfl
      omega
    · rw [List.mem_cons, h3]
      constructor
      · rintro (rfl | h)
        · exact hz.mpr ho
        · exact h.1
      · intro h
        by_cases h0 : s = ⟨0, 0, 0⟩
        · exact Or.inl h0
        · rw [← lev_eq_zero] at h0
          exact Or.inr ⟨h, by omega⟩
  · refine ⟨N + 1, l, fun fuel hf => ?_, h2, fun s => ?_, fun h => absurd h ho⟩
    · rw [imageShifts, if_neg hnp, imageLoop_mono _ _ _ _ _ _ _ h1 fuel hf]
      simp [ho]
    · rw [h3]
      constructor
      · exact fun h => h.1
      · intro h
        refine ⟨h, ?_⟩
        by_contra hc
        have h0 : s = ⟨0, 0, 0⟩ := (lev_eq_zero s).mp (by omega)
        subst h0
        exact ho (hz.mp h)

theorem axis_unique {lo L q : ℝ} (hL : 0 < L) (h1 : lo ≤ q) (h2 : q < lo + L) (s i : ℤ) (h3 : lo ≤ q + s * L + i * L)
    (h4 : q + s * L + i * L < lo + L) : i = -s := by
  have e1 : (-1 : ℝ) < ((s + i : ℤ) : ℝ) := by push_cast; nlinarith
  have e2 : (((s + i : ℤ)) : ℝ) < 1 := by push_cast; nlinarith
  have e1' : (-1 : ℤ) < s + i := by exact_mod_cast e1
  have e2' : s + i < (1 : ℤ) := by exact_mod_cast e2
  omega

theorem axis_unique' (p : Bool) {lo hi L q : ℝ} (hL : p = true → 0 < L) (hh : hi = lo + L) (h1 : lo ≤ q) (h2 : q < hi)
    (s i : ℤ) (hs : p = false → s = 0) (hi0 : p = false → i = 0) (h3 : lo ≤ q + s * L + i * L)
    (h4 : q + s * L + i * L < hi) : i = -s := by
  subst hh
  cases p with
  | false => rw [hs rfl, hi0 rfl]; rfl
  | true => exact axis_unique (hL rfl) h1 h2 s i h3 h4

/-- The only displacement that brings an image back. -/
theorem contained_back (pa : Axes) (root : Box) (hL : Extent pa (root.high - root.low)) (q : V3) (hq : root.contained q)
    (s i : Idx) (hs : Allowed pa s) (hi : Allowed pa i) :
    root.contained (q + shiftOf (root.high - root.low) s + shiftOf (root.high - root.low) i) ↔ i = s.neg := by
  rw [Box.contained_iff] at hq ⊢
  obtain ⟨⟨x1, x2⟩, ⟨y1, y2⟩, z1, z2⟩ := hq
  simp only [Box.MemHalf, shiftOf, V3.add_x, V3.add_y, V3.add_z, V3.sub_x, V3.sub_y, V3.sub_z]
  constructor
  · rintro ⟨⟨a1, a2⟩, ⟨b1, b2⟩, c1, c2⟩
    ext
    · exact axis_unique' pa.x hL.1 (by simp) x1 x2 s.x i.x hs.1 hi.1 a1 a2
    · exact axis_unique' pa.y hL.2.1 (by simp) y1 y2 s.y i.y hs.2.1 hi.2.1 b1 b2
    · exact axis_unique' pa.z hL.2.2 (by simp) z1 z2 s.z i.z hs.2.2 hi.2.2 c1 c2
  · rintro rfl
    simp only [Idx.neg]
    push_cast
    refine ⟨⟨?_, ?_⟩, ⟨?_, ?_⟩, ?_, ?_⟩ <;> linarith

theorem lev_neg (s : Idx) : s.neg.lev = s.lev := by simp [Idx.neg, Idx.lev]

theorem neg_neg' (s : Idx) : s.neg.neg = s := by simp [Idx.neg]

theorem Allowed.neg {pa : Axes} {s : Idx} (h : Allowed pa s) : Allowed pa s.neg := by
  obtain ⟨h1, h2, h3⟩ := h
  refine ⟨fun h => ?_, fun h => ?_, fun h => ?_⟩ <;> simp only [Idx.neg]
  · rw [h1 h]; rfl
  · rw [h2 h]; rfl
  · rw [h3 h]; rfl

theorem idLoop_spec (pa : Axes) (root : Box) (hL : Extent pa (root.high - root.low)) (q : V3) (hq : root.contained q)
    (s : Idx) (hs : Allowed pa s) : ∀ (k lev : ℕ), 1 ≤ lev → lev + k = s.lev → ∀ fuel, k + 1 ≤ fuel →
    idLoop pa root (q + shiftOf (root.high - root.low) s) fuel lev = some s := by
  intro k
  induction k with
  | zero =>
    intro lev hlev hk fuel hf
    obtain ⟨f, rfl⟩ : ∃ f, fuel = f + 1 := ⟨fuel - 1, by omega⟩
    rw [idLoop]
    cases hfind : (open Classical in (shell pa lev).find?
      (fun i => decide (root.contained (q + shiftOf (root.high - root.low) s + shiftOf (root.high - root.low) i)))) with
    | none =>
      rw [List.find?_eq_none] at hfind
      refine absurd ?_ (hfind s.neg ((mem_shell pa lev hlev s.neg).mpr ⟨hs.neg, by rw [lev_neg]; omega⟩))
      simp only [decide_eq_true_eq]
      exact (contained_back pa root hL q hq s s.neg hs hs.neg).mpr rfl
    | some i =>
      have h1 := List.find?_some hfind
      have h2 := (mem_shell pa lev hlev i).mp (List.mem_of_find?_eq_some hfind)
      simp only [decide_eq_true_eq] at h1
      rw [contained_back pa root hL q hq s i hs h2.1] at h1
      simp only [h1, neg_neg']
  | succ k ih =>
    intro lev hlev hk fuel hf
    obtain ⟨f, rfl⟩ : ∃ f, fuel = f + 1 := ⟨fuel - 1, by omega⟩
    rw [idLoop]
    cases hfind : (open Classical in (shell pa lev).find?
      (fun i => decide (root.contained (q + shiftOf (root.high - root.low) s + shiftOf (root.high - root.low) i)))) with
    | none => exact ih (lev + 1) (by omega) (by omega) f (by omega)
    | some i =>
      have h1 := List.find?_some hfind
      have h2 := (mem_shell pa lev hlev i).mp (List.mem_of_find?_eq_some hfind)
      simp only [decide_eq_true_eq] at h1
      rw [contained_back pa root hL q hq s i hs h2.1] at h1
      subst h1
      rw [lev_neg] at h2
      omega

/-- `CalcIDOfImageDomain` finds the displacement of the image. -/
theorem imageId_spec (pa : Axes) (root : Box) (hL : Extent pa (root.high - root.low)) (q : V3) (hq : root.contained q)
    (s : Idx) (hs : Allowed pa s) (fuel : ℕ) (hf : s.lev ≤ fuel) :
    imageId pa root (q + shiftOf (root.high - root.low) s) fuel = some s := by
  rw [imageId]
  by_cases h0 : s = ⟨0, 0, 0⟩
  · subst h0
    have : q + shiftOf (root.high - root.low) ⟨0, 0, 0⟩ = q := by
      rw [shiftOf_zero]; ext <;> simp
    rw [this, if_pos hq]
  · have hlev : s.lev ≠ 0 := fun h => h0 ((lev_eq_zero s).mp h)
    rw [if_neg, idLoop_spec pa root hL q hq s hs (s.lev - 1) 1 (le_refl _) (by omega) fuel (by omega)]
    intro hc
    have h2 := (contained_back pa root hL q hq s ⟨0, 0, 0⟩ hs ⟨fun _ => rfl, fun _ => rfl, fun _ => rfl⟩).mp (by
      rw [shiftOf_zero]
      have : q + shiftOf (root.high - root.low) s + 0 = q + shiftOf (root.high - root.low) s := by ext <;> simp
      rw [this]; exact hc)
    apply hlev
    rw [← lev_neg, ← h2]
    rfl

end Verif.Image
