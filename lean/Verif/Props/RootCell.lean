import Verif.Lemmas.RootCell
import Mathlib.Tactic.FinCases
/-! C77: the root cell of the trees. -/
namespace Verif
open Tree Image RootCell

/-- The particles of all ranks lie in the root domain, whose periodic axes have a positive extent; they are shared out among
threads in any way; some axis is periodic, some search radius is positive or there are two positions.  Then the search for the
root cell ends, and the root cell contains all particles, and also all particles displaced, in either direction, by any
multiple of the box lengths up to which the search ranges extend over the boundary of the root domain. -/
theorem C77_root_cell {α : Type} (big : ℝ) (pa : Axes) (root : Box) (n : ℕ) (P : ℕ → List (Ep α)) (chunks : ℕ → List (List (Ep α)))
    (hch : ∀ r < n, (chunks r).flatten.Perm (P r)) (hin : ∀ r < n, ∀ e ∈ P r, Box.Mem e.pos root ∧ 0 ≤ e.rs)
    (hL : Extent pa (root.high - root.low))
    (hpos : ∀ r < n, ∀ e ∈ P r, pa.some ∨ ∃ r' < n, ∃ e' ∈ P r', 0 < e'.rs ∨ e'.pos ≠ e.pos) :
    ∃ N f, (∀ fuel, N ≤ fuel → setRootCell big pa root n chunks fuel = some f) ∧
      (∀ r < n, ∀ e ∈ P r, Morton.InRoot f e.pos) ∧
      ∀ s, Allowed pa s → Reaches root ((List.range n).flatMap P) s → ∀ r < n, ∀ e ∈ P r,
        Morton.InRoot f (e.pos + ⟨s.x * (root.high.x - root.low.x), s.y * (root.high.y - root.low.y), s.z * (root.high.z - root.low.z)⟩) ∧
        Morton.InRoot f (e.pos - ⟨s.x * (root.high.x - root.low.x), s.y * (root.high.y - root.low.y), s.z * (root.high.z - root.low.z)⟩) := by
  have hsl : (1 : ℝ) ≤ slack := by rw [slack]; norm_num
  obtain ⟨out, hout⟩ : ∃ out, out = outer big ((List.range n).map (fun (r : ℕ) => boxLoc big (chunks r))) := ⟨_, rfl⟩
  have hall : ∀ r < n, ∀ e ∈ P r, Box.Le (Box.around e.pos (e.rs * slack)) out := by
    intro r hr e he
    rw [hout]
    exact around_le_out big n chunks hr ((hch r hr).mem_iff.mpr he)
  have hmem : ∀ r < n, ∀ e ∈ P r, Box.Mem e.pos out := by
    intro r hr e he
    obtain ⟨⟨a1, a2⟩, ⟨a3, a4⟩, a5, a6⟩ := hall r hr e he
    have := mul_nonneg (hin r hr e he).2 (le_trans zero_le_one hsl)
    simp only [Box.around] at a1 a2 a3 a4 a5 a6
    refine ⟨⟨?_, ?_⟩, ⟨?_, ?_⟩, ?_, ?_⟩ <;> linarith
  obtain ⟨Nx, nx, hx1, hx2⟩ := shiftMax_x pa.x root out _ hL.1
  obtain ⟨Ny, ny, hy1, hy2⟩ := shiftMax_y pa.y root out _ hL.2.1
  obtain ⟨Nz, nz, hz1, hz2⟩ := shiftMax_z pa.z root out _ hL.2.2
  obtain ⟨lx, hlx⟩ : ∃ l, l = axisLength pa.x nx (root.high - root.low).x (out.high - out.low).x := ⟨_, rfl⟩
  obtain ⟨ly, hly⟩ : ∃ l, l = axisLength pa.y ny (root.high - root.low).y (out.high - out.low).y := ⟨_, rfl⟩
  obtain ⟨lz, hlz⟩ : ∃ l, l = axisLength pa.z nz (root.high - root.low).z (out.high - out.low).z := ⟨_, rfl⟩
  obtain ⟨l, hl⟩ : ∃ l, l = max lz (max ly (max lx 0)) := ⟨_, rfl⟩
  have l1 : lx ≤ l := by rw [hl]; exact le_trans (le_max_left _ _) (le_trans (le_max_right _ _) (le_max_right _ _))
  have l2 : ly ≤ l := by rw [hl]; exact le_trans (le_max_left _ _) (le_max_right _ _)
  have l3 : lz ≤ l := by rw [hl]; exact le_max_left _ _
  have key : ∀ s, Allowed pa s → Reaches root ((List.range n).flatMap P) s → ∀ r < n, ∀ e ∈ P r,
      Morton.InRoot ⟨⟨axisCenter pa.x root.low.x root.high.x out.low.x out.high.x,
        axisCenter pa.y root.low.y root.high.y out.low.y out.high.y,
        axisCenter pa.z root.low.z root.high.z out.low.z out.high.z⟩, l * slack * 0.5⟩ (e.pos + shiftOf (root.high - root.low) s) ∧
      Morton.InRoot ⟨⟨axisCenter pa.x root.low.x root.high.x out.low.x out.high.x,
        axisCenter pa.y root.low.y root.high.y out.low.y out.high.y,
        axisCenter pa.z root.low.z root.high.z out.low.z out.high.z⟩, l * slack * 0.5⟩ (e.pos - shiftOf (root.high - root.low) s) := by
    intro s hs hre r hr e he
    have hl0 : 0 < l := by
      have ap : ∀ (p : Bool) (n : ℕ) (L full : ℝ), p = true → 0 < L → 0 < axisLength p n L full := by
        intro p n L full hp hL
        rw [axisLength, if_pos hp]
        positivity
      by_cases hp : pa.some
      · rcases hp with h | h | h
        · exact lt_of_lt_of_le (hlx ▸ ap _ _ _ _ h (hL.1 h)) l1
        · exact lt_of_lt_of_le (hly ▸ ap _ _ _ _ h (hL.2.1 h)) l2
        · exact lt_of_lt_of_le (hlz ▸ ap _ _ _ _ h (hL.2.2 h)) l3
      · obtain ⟨r', hr', e', he', h⟩ := (hpos r hr e he).resolve_left hp
        simp only [Axes.some, not_or, Bool.not_eq_true] at hp
        obtain ⟨px, py, pz⟩ := hp
        rw [px, axisLength, if_neg (by simp)] at hlx
        rw [py, axisLength, if_neg (by simp)] at hly
        rw [pz, axisLength, if_neg (by simp)] at hlz
        simp only [V3.sub_x, V3.sub_y, V3.sub_z] at hlx hly hlz
        rcases h with h | h
        · obtain ⟨⟨a1, a2⟩, _⟩ := hall r' hr' e' he'
          simp only [Box.around] at a1 a2
          have : 0 < e'.rs * slack := mul_pos h (lt_of_lt_of_le zero_lt_one hsl)
          linarith
        · obtain ⟨⟨a1, a2⟩, ⟨a3, a4⟩, a5, a6⟩ := hmem r hr e he
          obtain ⟨⟨b1, b2⟩, ⟨b3, b4⟩, b5, b6⟩ := hmem r' hr' e' he'
          by_contra hc
          apply h
          ext <;> linarith
    have hq := hmem r hr e he
    have hr' := (hin r hr e he).1
    obtain ⟨⟨⟨ax, hax, rx1⟩, ⟨bx, hbx, rx2⟩⟩, ⟨⟨ay, hay, ry1⟩, ⟨by', hby, ry2⟩⟩, ⟨⟨az, haz, rz1⟩, ⟨bz, hbz, rz2⟩⟩⟩ := hre
    have hb : ∀ a ∈ (List.range n).flatMap P, Box.Le (Box.around a.pos a.rs) out := by
      intro a ha
      obtain ⟨r0, hr0, ha0⟩ := List.mem_flatMap.mp ha
      have h1 := hall r0 (List.mem_range.mp hr0) a ha0
      have h2 := (hin r0 (List.mem_range.mp hr0) a ha0).2
      have h3 : a.rs ≤ a.rs * slack := le_mul_of_one_le_right h2 hsl
      obtain ⟨⟨a1, a2⟩, ⟨a3, a4⟩, a5, a6⟩ := h1
      simp only [Box.around] at *
      refine ⟨⟨?_, ?_⟩, ⟨?_, ?_⟩, ?_, ?_⟩ <;> simp only <;> linarith
    have ix : pa.x = true → -(nx : ℝ) ≤ s.x ∧ (s.x : ℝ) ≤ nx := fun hp =>
      index_le (hL.1 hp) (hx2 hp _ hq hr').1 (hx2 hp _ hq hr').2 (le_trans rx2 (hb bx hbx).1.2) (le_trans (hb ax hax).1.1 rx1)
    have iy : pa.y = true → -(ny : ℝ) ≤ s.y ∧ (s.y : ℝ) ≤ ny := fun hp =>
      index_le (hL.2.1 hp) (hy2 hp _ hq hr').1 (hy2 hp _ hq hr').2 (le_trans ry2 (hb by' hby).2.1.2) (le_trans (hb ay hay).2.1.1 ry1)
    have iz : pa.z = true → -(nz : ℝ) ≤ s.z ∧ (s.z : ℝ) ≤ nz := fun hp =>
      index_le (hL.2.2 hp) (hz2 hp _ hq hr').1 (hz2 hp _ hq hr').2 (le_trans rz2 (hb bz hbz).2.2.2) (le_trans (hb az haz).2.2.1 rz1)
    obtain ⟨⟨o1, o2⟩, ⟨o3, o4⟩, o5, o6⟩ := hq
    obtain ⟨⟨r1, r2⟩, ⟨r3, r4⟩, r5, r6⟩ := hr'
    constructor
    · refine ⟨?_, ?_, ?_⟩
      · exact axis_inRoot pa.x (i := s.x) rfl hL.1 (hlx ▸ l1) hl0 o1 o2 r1 r2 ix hs.1
      · exact axis_inRoot pa.y (i := s.y) rfl hL.2.1 (hly ▸ l2) hl0 o3 o4 r3 r4 iy hs.2.1
      · exact axis_inRoot pa.z (i := s.z) rfl hL.2.2 (hlz ▸ l3) hl0 o5 o6 r5 r6 iz hs.2.2
    · have neg : ∀ t (i : ℤ) L, t - i * L = t + ((-i : ℤ) : ℝ) * L := by intro t i L; push_cast; ring
      simp only [Morton.InRoot, V3.sub_x, V3.sub_y, V3.sub_z, shiftOf, neg]
      refine ⟨?_, ?_, ?_⟩
      · exact axis_inRoot pa.x (i := -s.x) rfl hL.1 (hlx ▸ l1) hl0 o1 o2 r1 r2
          (fun hp => by obtain ⟨a, b⟩ := ix hp; push_cast; constructor <;> linarith) (fun hp => by rw [hs.1 hp]; rfl)
      · exact axis_inRoot pa.y (i := -s.y) rfl hL.2.1 (hly ▸ l2) hl0 o3 o4 r3 r4
          (fun hp => by obtain ⟨a, b⟩ := iy hp; push_cast; constructor <;> linarith) (fun hp => by rw [hs.2.1 hp]; rfl)
      · exact axis_inRoot pa.z (i := -s.z) rfl hL.2.2 (hlz ▸ l3) hl0 o5 o6 r5 r6
          (fun hp => by obtain ⟨a, b⟩ := iz hp; push_cast; constructor <;> linarith) (fun hp => by rw [hs.2.2 hp]; rfl)
  refine ⟨max Nx (max Ny Nz), _, fun fuel hf => ?_, fun r hr e he => ?_, key⟩
  · rw [setRootCell, ← hout, rootCell]
    simp only
    rw [hx1 fuel (by omega), hy1 fuel (by omega), hz1 fuel (by omega)]
    simp only [Box.pickMax_eq]
    rw [← hlx, ← hly, ← hlz, ← hl]
  · have h0 := (key ⟨0, 0, 0⟩ ⟨fun _ => rfl, fun _ => rfl, fun _ => rfl⟩ ?_ r hr e he).1
    · rw [shiftOf_zero] at h0
      have : e.pos + 0 = e.pos := by ext <;> simp
      rwa [this] at h0
    · have hmem' : e ∈ (List.range n).flatMap P := List.mem_flatMap.mpr ⟨r, List.mem_range.mpr hr, he⟩
      obtain ⟨⟨⟨r1, r2⟩, ⟨r3, r4⟩, r5, r6⟩, h0⟩ := hin r hr e he
      refine ⟨⟨⟨e, hmem', ?_⟩, e, hmem', ?_⟩, ⟨⟨e, hmem', ?_⟩, e, hmem', ?_⟩, ⟨e, hmem', ?_⟩, e, hmem', ?_⟩ <;>
        simp only [Int.cast_zero, zero_mul, add_zero] <;> linarith

/-- Two ranks in a box that is periodic along one axis; the first particle reaches over the boundary. -/
example : let P : ℕ → List (Ep Unit) := fun r => if r = 0 then [⟨⟨1, 1, 1⟩, 2, ()⟩] else [⟨⟨3, 1, 1⟩, 1, ()⟩, ⟨⟨3, 2, 1⟩, 0, ()⟩]
    let root : Box := ⟨⟨0, 0, 0⟩, ⟨4, 4, 4⟩⟩
    (∀ r < 2, ([P r] : List (List (Ep Unit))).flatten.Perm (P r)) ∧ (∀ r < 2, ∀ e ∈ P r, Box.Mem e.pos root ∧ 0 ≤ e.rs) ∧
      Extent ⟨true, false, false⟩ (root.high - root.low) ∧ Allowed ⟨true, false, false⟩ ⟨-1, 0, 0⟩ ∧
      Reaches root ((List.range 2).flatMap P) ⟨-1, 0, 0⟩ := by
  intro P root
  refine ⟨fun r _ => by simp, fun r hr e he => ?_, ⟨fun _ => ?_, ⟨fun h => (by cases h), fun h => (by cases h)⟩⟩,
    ⟨fun h => (by cases h), fun _ => rfl, fun _ => rfl⟩, ?_⟩
  · by_cases h : r = 0
    · simp only [P, h, if_true, List.mem_singleton] at he
      subst he
      simp only [Box.Mem, root]; norm_num
    · simp only [P, h, if_false, List.mem_cons, List.not_mem_nil, or_false] at he
      rcases he with rfl | rfl <;> simp only [Box.Mem, root] <;> norm_num
  · simp only [root, V3.sub_x]; norm_num
  · have h1 : (⟨⟨1, 1, 1⟩, 2, ()⟩ : Ep Unit) ∈ (List.range 2).flatMap P :=
      List.mem_flatMap.mpr ⟨0, by simp, by simp [P]⟩
    refine ⟨⟨⟨_, h1, ?_⟩, _, h1, ?_⟩, ⟨⟨_, h1, ?_⟩, _, h1, ?_⟩, ⟨_, h1, ?_⟩, _, h1, ?_⟩ <;> simp only [root] <;> norm_num

/-- With open boundaries and all particles in one point and without search radius the root cell has no extent and does not
contain them: the factor of the keys is a division by zero. -/
theorem C77_point_false (big : ℝ) (hb : 0 ≤ big) (p : V3) (hx : |p.x| ≤ big) (hy : |p.y| ≤ big) (hz : |p.z| ≤ big) (root : Box)
    (fuel : ℕ) : ∃ f, setRootCell big ⟨false, false, false⟩ root 1 (fun _ => [[(⟨p, 0, ()⟩ : Ep Unit)]]) fuel = some f ∧
      f.halfLen = 0 ∧ ¬ Morton.InRoot f p := by
  rw [abs_le] at hx hy hz
  have hbox : outer big ((List.range 1).map (fun (r : ℕ) => boxLoc big ((fun _ => [[(⟨p, 0, ()⟩ : Ep Unit)]]) r))) = ⟨p, p⟩ := by
    simp only [List.range_one, List.map_cons, List.map_nil, outer, List.foldl_nil, boxLoc, List.foldl_cons, boxThread,
      Box.mergeSphere_eq, Box.around, zero_mul, sub_zero, add_zero, Box.merge, Box.negative, Box.pickMax_eq, Box.pickMin_eq]
    ext <;> simp [hx, hy, hz]
  have h0 : ∀ t : ℝ, t - t = 0 := fun t => sub_self t
  refine ⟨⟨p, 0⟩, ?_, rfl, fun h => ?_⟩
  · rw [setRootCell, hbox, rootCell]
    simp only [shiftMax, axisLength, axisCenter, Bool.false_eq_true, if_false, V3.sub_x, V3.sub_y, V3.sub_z, h0, Box.pickMax_eq,
      max_self, zero_mul]
    congr 2
    ext <;> simp <;> ring
  · obtain ⟨⟨_, h2⟩, _⟩ := h
    simp at h2

end Verif
