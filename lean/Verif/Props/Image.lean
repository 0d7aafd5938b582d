import Verif.Lemmas.Image
import Verif.Props.Box
import Mathlib.Tactic.NormNum
/-! C74, C75: images of domains and of particles in a periodic box. -/
namespace Verif
open Image

/-- If some axis is periodic with a positive extent and both boxes have, along every periodic axis, a coordinate of the
root domain, then `CalcNumberAndShiftOfImageDomain` ends and lists, each once, exactly the images of the target box
that have a point in common with the own box, wherever they are; the target box itself comes first if it is listed. -/
theorem C74_images_exact (pa : Axes) (hp : pa.some) (root my target : Box) (hL : Extent pa (root.high - root.low))
    (hm : Touches pa my root) (ht : Touches pa target root) (hmp : Box.Proper my) (htp : Box.Proper target) :
    ∃ N S, (∀ fuel, N ≤ fuel → imageShifts pa (root.high - root.low) my target fuel = some S) ∧ S.Nodup ∧
      (∀ s, s ∈ S ↔ Allowed pa s ∧ ∃ p, Box.Mem p my ∧
        Box.Mem (p - ⟨s.x * (root.high.x - root.low.x), s.y * (root.high.y - root.low.y), s.z * (root.high.z - root.low.z)⟩) target) ∧
      ((∃ p, Box.Mem p my ∧ Box.Mem p target) → S.head? = some ⟨0, 0, 0⟩) := by
  obtain ⟨N, S, h1, h2, h3, h4⟩ := imageShifts_spec pa hp root my target hL hm ht
  refine ⟨N, S, h1, h2, fun s => ?_, fun h => h4 ((C69_overlap_iff_common_point my target hmp htp).mpr h)⟩
  have hps : Box.Proper (target.shift (shiftOf (root.high - root.low) s)) := by
    obtain ⟨a, b, c⟩ := htp
    refine ⟨?_, ?_, ?_⟩ <;> simp only [Box.shift, V3.add_x, V3.add_y, V3.add_z] <;> linarith
  rw [h3, Listed, C69_overlap_iff_common_point _ _ hmp hps]
  simp only [Box.mem_shift, shiftOf, V3.sub_x, V3.sub_y, V3.sub_z]

example : (⟨true, false, true⟩ : Axes).some ∧ Extent ⟨true, false, true⟩ ((⟨4, 9, 2⟩ : V3) - ⟨1, 0, 0⟩) ∧
    Touches ⟨true, false, true⟩ ⟨⟨-7, 0, 0⟩, ⟨2, 1, 1⟩⟩ ⟨⟨1, 0, 0⟩, ⟨4, 9, 2⟩⟩ ∧
    Touches ⟨true, false, true⟩ ⟨⟨2, 0, 0⟩, ⟨4, 9, 2⟩⟩ ⟨⟨1, 0, 0⟩, ⟨4, 9, 2⟩⟩ ∧
    Box.Proper ⟨⟨-7, 0, 0⟩, ⟨2, 1, 1⟩⟩ ∧ Box.Proper ⟨⟨2, 0, 0⟩, ⟨4, 9, 2⟩⟩ := by
  simp [Axes.some, Extent, Touches, Box.Proper]
  norm_num

/-- Without periodic axes the list is the target box itself, whether it is close or not. -/
theorem C74_open_box (size : V3) (my target : Box) (fuel : ℕ) :
    imageShifts ⟨false, false, false⟩ size my target fuel = some [⟨0, 0, 0⟩] := by
  simp [imageShifts]

/-- The loop ends at the first level without an image, so images of a box outside of the root domain are missed: here
the target box has an image at a distance of two box lengths, which is not listed. -/
theorem C74_outside_false : ∃ (pa : Axes) (root my target : Box), pa.some ∧ Extent pa (root.high - root.low) ∧
    Box.Proper my ∧ Box.Proper target ∧ Touches pa target root ∧
    (∃ s, Allowed pa s ∧ ∃ p, Box.Mem p my ∧ Box.Mem (p - shiftOf (root.high - root.low) s) target) ∧
    ∀ fuel, 1 ≤ fuel → imageShifts pa (root.high - root.low) my target fuel = some [] := by
  refine ⟨⟨true, false, false⟩, ⟨⟨0, 0, 0⟩, ⟨2, 2, 2⟩⟩, ⟨⟨5, 0, 0⟩, ⟨5, 1, 1⟩⟩, ⟨⟨1, 0, 0⟩, ⟨1, 1, 1⟩⟩, Or.inl rfl, ?_, ?_, ?_, ?_,
    ⟨⟨2, 0, 0⟩, ?_, ⟨5, 0, 0⟩, ?_, ?_⟩, ?_⟩
  · simp [Extent]
  · simp [Box.Proper]
  · simp [Box.Proper]
  · simp [Touches]
  · simp [Allowed]
  · simp [Box.Mem]
  · simp [Box.Mem, shiftOf]; norm_num
  · intro fuel hf
    obtain ⟨f, rfl⟩ : ∃ f, fuel = f + 1 := ⟨fuel - 1, by omega⟩
    have hnil : levelImages ⟨true, false, false⟩ ((⟨2, 2, 2⟩ : V3) - ⟨0, 0, 0⟩) ⟨⟨5, 0, 0⟩, ⟨5, 1, 1⟩⟩ ⟨⟨1, 0, 0⟩, ⟨1, 1, 1⟩⟩ 1 = [] := by
      rw [List.eq_nil_iff_forall_not_mem]
      intro s hs
      rw [mem_levelImages _ _ _ _ 1 (le_refl _), overlapped_shift_iff] at hs
      obtain ⟨⟨_, h, _⟩, hl⟩ := hs
      simp only [V3.sub_x] at h
      have h1 : (2 : ℝ) ≤ s.x := by linarith [h.1]
      have h1' : (2 : ℤ) ≤ s.x := by exact_mod_cast h1
      unfold Idx.lev at hl
      omega
    rw [imageShifts, if_neg (by simp), imageLoop]
    have hno : ¬ (⟨⟨5, 0, 0⟩, ⟨5, 1, 1⟩⟩ : Box).overlapped ⟨⟨1, 0, 0⟩, ⟨1, 1, 1⟩⟩ := by
      simp only [Box.overlapped, not_not]; left; norm_num
    simp [hnil, hno]

/-- A periodic axis without extent makes the loop run for ever. -/
theorem C74_no_extent_diverges (size : V3) (hs : size.x = 0) (my target : Box) (ho : my.overlapped target) (fuel : ℕ) :
    imageShifts ⟨true, false, false⟩ size my target fuel = none := by
  have key : ∀ fuel lev, 1 ≤ lev → imageLoop ⟨true, false, false⟩ size my target fuel lev = none := by
    intro fuel
    induction fuel with
    | zero => intro lev _; rfl
    | succ f ih =>
      intro lev hl
      rw [imageLoop]
      have hm : (⟨lev, 0, 0⟩ : Idx) ∈ levelImages ⟨true, false, false⟩ size my target lev := by
        rw [mem_levelImages _ _ _ _ lev hl]
        refine ⟨⟨⟨fun h => (by cases h), fun _ => rfl, fun _ => rfl⟩, ?_⟩, ?_⟩
        · rw [overlapped_shift_iff]
          simp only [hs, mul_zero, add_zero, Int.cast_zero, zero_mul]
          rw [Box.overlapped_iff] at ho
          tauto
        · simp [Idx.lev]
      have hlen : (levelImages ⟨true, false, false⟩ size my target lev).length ≠ 0 := by
        intro h
        rw [List.length_eq_zero_iff] at h
        rw [h] at hm
        exact absurd hm List.not_mem_nil
      rw [if_neg hlen, ih (lev + 1) (by omega)]
  rw [imageShifts, if_neg (by simp), key fuel 1 (le_refl _)]

/-- For the image `q + s L` of a position `q` of the root domain, displaced along periodic axes only,
`CalcIDOfImageDomain` returns `s`. -/
theorem C75_image_id (pa : Axes) (root : Box) (hL : Extent pa (root.high - root.low)) (q : V3) (hq : Box.MemHalf q root)
    (s : Idx) (hs : Allowed pa s) : ∃ N, ∀ fuel, N ≤ fuel → imageId pa root
      (q + ⟨s.x * (root.high.x - root.low.x), s.y * (root.high.y - root.low.y), s.z * (root.high.z - root.low.z)⟩) fuel = some s :=
  ⟨s.lev, fun fuel hf => imageId_spec pa root hL q ((Box.contained_iff _ _).mpr hq) s hs fuel hf⟩

example : Extent ⟨true, false, true⟩ ((⟨4, 9, 2⟩ : V3) - ⟨1, 0, 0⟩) ∧ Box.MemHalf ⟨1, 3, 0⟩ ⟨⟨1, 0, 0⟩, ⟨4, 9, 2⟩⟩ ∧
    Allowed ⟨true, false, true⟩ ⟨-3, 0, 5⟩ := by
  simp [Extent, Box.MemHalf, Allowed]
  norm_num

/-- For a position outside of the root domain along an axis that is not periodic the search never ends. -/
theorem C75_outside_diverges (pa : Axes) (hx : pa.x = false) (root : Box) (p : V3) (hp : p.x < root.low.x) (fuel : ℕ) :
    imageId pa root p fuel = none := by
  have key : ∀ fuel lev, 1 ≤ lev → idLoop pa root p fuel lev = none := by
    intro fuel
    induction fuel with
    | zero => intro lev _; rfl
    | succ f ih =>
      intro lev hl
      rw [idLoop]
      have hn : (open Classical in (shell pa lev).find?
          (fun s => decide (root.contained (p + shiftOf (root.high - root.low) s)))) = none := by
        rw [List.find?_eq_none]
        intro s hs
        rw [mem_shell pa lev hl] at hs
        simp only [decide_eq_true_eq]
        rw [Box.contained_iff]
        intro h
        have := h.1.1
        simp only [V3.add_x, shiftOf, hs.1.1 hx, Int.cast_zero, zero_mul, add_zero] at this
        linarith
      rw [hn]
      exact ih (lev + 1) (by omega)
  rw [imageId, if_neg, key fuel 1 (le_refl _)]
  rw [Box.contained_iff]
  intro h
  linarith [h.1.1]

example : (⟨false, true, true⟩ : Axes).x = false ∧ (⟨-1, 0, 0⟩ : V3).x < (⟨⟨0, 0, 0⟩, ⟨1, 1, 1⟩⟩ : Box).low.x := by
  refine ⟨rfl, ?_⟩
  norm_num

end Verif
