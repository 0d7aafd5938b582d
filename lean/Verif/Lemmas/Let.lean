import Verif.Spec.Let
import Verif.Lemmas.Walk2
import Verif.Lemmas.Image
/-! Lemmas on the exchange of particles. -/
namespace Verif.Let
open Tree Image

variable {α : Type}

/-! ### packing -/

/-- The particles of one image, displaced. -/
noncomputable def pk (eps : List (Ep α)) (size : V3) (x : Idx × List ℕ) : List (Ep α) :=
  x.2.filterMap (fun j => (eps[j]?).map (fun e => moved e (shiftOf size x.1)))

theorem packImage_eq (eps : List (Ep α)) (v : V3) (l : List ℕ) (h : ∀ j ∈ l, j < eps.length) :
    packImage eps v l = some (l.filterMap (fun j => (eps[j]?).map (fun e => moved e v))) := by
  induction l with
  | nil => rfl
  | cons j l ih =>
    rw [packImage, ih (fun i hi => h i (List.mem_cons_of_mem _ hi))]
    have hj := h j List.mem_cons_self
    rw [List.filterMap_cons, List.getElem?_eq_getElem hj]
    rfl

theorem pack_eq (eps : List (Ep α)) (size : V3) (im : List (Idx × List ℕ)) (h : ∀ x ∈ im, ∀ j ∈ x.2, j < eps.length) :
    pack eps size im = some (im.flatMap (pk eps size)) := by
  induction im with
  | nil => rfl
  | cons x im ih =>
    obtain ⟨s, l⟩ := x
    rw [pack, ih (fun y hy => h y (List.mem_cons_of_mem _ hy)), packImage_eq eps _ l (h _ List.mem_cons_self)]
    rfl

theorem mem_pk {eps : List (Ep α)} {size : V3} {x : Idx × List ℕ} {e : Ep α} :
    e ∈ pk eps size x ↔ ∃ j ∈ x.2, ∃ e', eps[j]? = some e' ∧ e = moved e' (shiftOf size x.1) := by
  simp only [pk, List.mem_filterMap, Option.map_eq_some_iff]
  constructor
  · rintro ⟨j, hj, e', h1, h2⟩; exact ⟨j, hj, e', h1, h2.symm⟩
  · rintro ⟨j, hj, e', h1, h2⟩; exact ⟨j, hj, e', h1, h2.symm⟩

/-! ### runs of images -/

theorem addLast_append (e : Ep α) (acc : List (Idx × List (Ep α))) (s : Idx) (l : List (Ep α)) :
    addLast e (acc ++ [(s, l)]) = some (acc ++ [(s, l ++ [e])]) := by
  induction acc with
  | nil => rfl
  | cons x acc ih =>
    cases acc with
    | nil => rfl
    | cons y acc =>
      show (match addLast e ((y :: acc) ++ [(s, l)]) with
        | none => none
        | some r' => some (x :: r')) = _
      rw [ih]
      rfl

theorem splitLoop_run (d : Dinfo) (fuel : ℕ) (s : Idx) (es rest : List (Ep α)) (acc : List (Idx × List (Ep α)))
    (h : ∀ e ∈ es, imageId d.pa d.root e.pos fuel = some s) : ∀ l,
    splitLoop d fuel (es ++ rest) s (acc ++ [(s, l)]) = splitLoop d fuel rest s (acc ++ [(s, l ++ es)]) := by
  induction es with
  | nil => intro l; simp
  | cons e es ih =>
    intro l
    rw [List.cons_append, splitLoop, h e List.mem_cons_self]
    simp only [ne_eq, not_true_eq_false, if_false, addLast_append]
    rw [ih (fun e' he' => h e' (List.mem_cons_of_mem _ he'))]
    simp

theorem splitLoop_block (d : Dinfo) (fuel : ℕ) (s old : Idx) (es rest : List (Ep α)) (acc : List (Idx × List (Ep α)))
    (hne : es ≠ []) (hold : old ≠ s) (h : ∀ e ∈ es, imageId d.pa d.root e.pos fuel = some s) :
    splitLoop d fuel (es ++ rest) old acc = splitLoop d fuel rest s (acc ++ [(s, es)]) := by
  cases es with
  | nil => exact absurd rfl hne
  | cons e es =>
    rw [List.cons_append, splitLoop, h e List.mem_cons_self]
    simp only [ne_eq, hold, not_false_eq_true, if_true, addLast_append]
    rw [splitLoop_run d fuel s es rest acc (fun e' he' => h e' (List.mem_cons_of_mem _ he'))]
    simp

theorem splitLoop_blocks (d : Dinfo) (fuel : ℕ) (bs : List (Idx × List (Ep α))) : ∀ (old : Idx) (acc : List (Idx × List (Ep α))),
    (∀ x ∈ bs, x.2 ≠ []) → (∀ x ∈ bs, ∀ e ∈ x.2, imageId d.pa d.root e.pos fuel = some x.1) → (bs.map Prod.fst).Nodup →
    old ∉ bs.map Prod.fst → splitLoop d fuel (bs.flatMap Prod.snd) old acc = some (acc ++ bs) := by
  induction bs with
  | nil => intro old acc _ _ _ _; simp [splitLoop]
  | cons x bs ih =>
    obtain ⟨s, es⟩ := x
    intro old acc h1 h2 h3 h4
    rw [List.map_cons, List.nodup_cons] at h3
    rw [List.map_cons, List.mem_cons, not_or] at h4
    rw [List.flatMap_cons, splitLoop_block d fuel s old es _ acc (h1 _ List.mem_cons_self) h4.1 (h2 _ List.mem_cons_self),
      ih s _ (fun x hx => h1 x (List.mem_cons_of_mem _ hx)) (fun x hx => h2 x (List.mem_cons_of_mem _ hx)) h3.2 h3.1]
    simp

/-! ### the first step -/

/-- Particle `j` is in a leaf whose outer box reaches `box`. -/
def Touch (T : MTree α) (box : Box) (j : ℕ) : Prop := ∃ l, InLeaf T j 0 l ∧ box.overlapped (T.mom l).vout

/-- The particles for one image. -/
noncomputable def slist (T : MTree α) (box : Box) : List ℕ := (scatterList T ⟨box, box⟩).getD []

theorem slist_spec {big : ℝ} {keys : List (BitVec 64)} {T : MTree α} (hG : Good big keys T) (box : Box) :
    scatterList T ⟨box, box⟩ = some (slist T box) ∧ (slist T box).Nodup ∧ ∀ j, j ∈ slist T box ↔ Touch T box j := by
  obtain ⟨L, h1, h2, h3⟩ := scatterList_spec hG ⟨box, box⟩
  have : slist T box = L := by rw [slist, h1]; rfl
  rw [this]
  exact ⟨h1, h2.imp (fun h => by omega), h3⟩

theorem scatterImages_false {big : ℝ} {keys : List (BitVec 64)} {T : MTree α} (hG : Good big keys T) (d : Dinfo) (i : ℕ)
    (S : List Idx) : scatterImages d T i false S = some (S.map (fun s => (s, slist T (d.image i s)))) := by
  induction S with
  | nil => rfl
  | cons s S ih =>
    rw [scatterImages, ih, if_neg Bool.false_ne_true, (slist_spec hG _).1]
    rfl

/-- What `FindScatterParticle` finds for one rank. -/
structure Scattered (d : Dinfo) (T : MTree α) (own : Prop) (i : ℕ) (im : List (Idx × List ℕ)) : Prop where
  nodup : (im.map Prod.fst).Nodup
  allowed : ∀ x ∈ im, Allowed d.pa x.1
  list : ∀ x ∈ im, x.2.Nodup
  sound : ∀ x ∈ im, ∀ j ∈ x.2, Touch T (d.image i x.1) j ∧ (own → x.1 ≠ ⟨0, 0, 0⟩)
  complete : ∀ s j, Allowed d.pa s → Touch T (d.image i s) j → (own → s ≠ ⟨0, 0, 0⟩) → ∃ x ∈ im, x.1 = s ∧ j ∈ x.2

theorem scatterImages_spec {big : ℝ} {keys : List (BitVec 64)} {T : MTree α} (hG : Good big keys T) (d : Dinfo) (my i : ℕ)
    (S : List Idx) (h1 : S.Nodup) (h2 : ∀ s ∈ S, Allowed d.pa s)
    (h3 : ∀ s j, Allowed d.pa s → Touch T (d.image i s) j → s ∈ S)
    (h4 : (⟨0, 0, 0⟩ : Idx) ∈ S → S.head? = some ⟨0, 0, 0⟩)
    (h5 : my = i → ∀ s j, Touch T (d.image i s) j → Touch T (d.image i ⟨0, 0, 0⟩) j) :
    ∃ im, scatterImages d T i (decide (my = i)) S = some im ∧ Scattered d T (my = i) i im := by
  by_cases hmy : my = i
  · rw [decide_eq_true hmy]
    cases S with
    | nil =>
      refine ⟨[], rfl, ⟨List.nodup_nil, by simp, by simp, by simp, fun s j hs ht _ => absurd (h3 s j hs ht) List.not_mem_nil⟩⟩
    | cons s S =>
      rw [scatterImages, scatterImages_false hG, if_pos rfl]
      refine ⟨_, rfl, ⟨?_, ?_, ?_, ?_, ?_⟩⟩
      · simpa [Function.comp_def] using h1
      · intro x hx
        rcases List.mem_cons.mp hx with rfl | hx
        · exact h2 _ List.mem_cons_self
        · obtain ⟨s', hs', rfl⟩ := List.mem_map.mp hx
          exact h2 _ (List.mem_cons_of_mem _ hs')
      · intro x hx
        rcases List.mem_cons.mp hx with rfl | hx
        · exact List.nodup_nil
        · obtain ⟨s', hs', rfl⟩ := List.mem_map.mp hx
          exact (slist_spec hG _).2.1
      · intro x hx j hj
        rcases List.mem_cons.mp hx with rfl | hx
        · simp at hj
        · obtain ⟨s', hs', rfl⟩ := List.mem_map.mp hx
          refine ⟨((slist_spec hG _).2.2 j).mp hj, fun _ h0 => ?_⟩
          simp only at h0
          subst h0
          have := h4 (List.mem_cons_of_mem _ hs')
          rw [List.head?_cons] at this
          obtain rfl := Option.some.inj this
          exact (List.nodup_cons.mp h1).1 hs'
      · intro s' j hs' ht hne
        have hmem := h3 s' j hs' ht
        rcases List.mem_cons.mp hmem with rfl | hmem
        · exfalso
          have h0 := h4 (h3 ⟨0, 0, 0⟩ j ⟨fun _ => rfl, fun _ => rfl, fun _ => rfl⟩ (h5 hmy s' j ht))
          rw [List.head?_cons] at h0
          exact hne hmy (Option.some.inj h0)
        · exact ⟨_, List.mem_cons_of_mem _ (List.mem_map.mpr ⟨s', hmem, rfl⟩), rfl, ((slist_spec hG _).2.2 j).mpr ht⟩
  · rw [decide_eq_false hmy, scatterImages_false hG]
    refine ⟨_, rfl, ⟨?_, ?_, ?_, ?_, ?_⟩⟩
    · simpa [Function.comp_def] using h1
    · intro x hx
      obtain ⟨s', hs', rfl⟩ := List.mem_map.mp hx
      exact h2 _ hs'
    · intro x hx
      obtain ⟨s', hs', rfl⟩ := List.mem_map.mp hx
      exact (slist_spec hG _).2.1
    · intro x hx j hj
      obtain ⟨s', hs', rfl⟩ := List.mem_map.mp hx
      exact ⟨((slist_spec hG _).2.2 j).mp hj, fun h => absurd h hmy⟩
    · intro s' j hs' ht _
      exact ⟨_, List.mem_map.mpr ⟨s', h3 s' j hs' ht, rfl⟩, rfl, ((slist_spec hG _).2.2 j).mpr ht⟩

theorem image_zero (d : Dinfo) (i : ℕ) : d.image i ⟨0, 0, 0⟩ = d.dom i := by
  rw [Dinfo.image, shiftOf_zero, shift_zero]

section world
variable {d : Dinfo} {f : Morton.Frame} {big : ℝ} {T : ℕ → MTree α}

theorem touch_lt {T : MTree α} {keys : List (BitVec 64)} (hG : Good big keys T) {box : Box} {j : ℕ} (h : Touch T box j) :
    j < T.eps.length := by
  obtain ⟨l, h1, _⟩ := h
  have := (h1.range hG.limit hG.linked.root).1
  rw [hG.len]; omega

theorem touch_of_mem {T : MTree α} {keys : List (BitVec 64)} (hG : Good big keys T) {box : Box} {j : ℕ} {e : Ep α} {p : V3}
    (hj : T.eps[j]? = some e) (hp : Box.Mem p box) (hr : Box.Mem p (Box.around e.pos e.rs)) : Touch T box j := by
  have hlt := (List.getElem?_eq_some_iff.mp hj).1
  obtain ⟨l, hl⟩ := exists_inLeaf hG.linked.root j (Nat.zero_le _) (by rw [← hG.len]; omega)
  refine ⟨l, hl, ?_⟩
  obtain ⟨_, lev', a', n', f1, f2, f3, _⟩ := hl.range hG.limit hG.linked.root
  exact Box.overlapped_of_mem hp ((hG.mem_box f1 f2 f3 hj).2.mem hr)

theorem touch_listed {T : MTree α} {keys : List (BitVec 64)} (hG : Good big keys T) {box : Box} {j : ℕ} (h : Touch T box j) :
    (T.mom 0).vout.overlapped box := by
  obtain ⟨l, h1, h2⟩ := h
  rw [Box.overlapped_comm]
  exact (hG.leaf_le hG.linked.root h1).2.overlapped h2

theorem mem_around_self (p : V3) {r : ℝ} (hr : 0 ≤ r) : Box.Mem p (Box.around p r) := by
  refine ⟨⟨?_, ?_⟩, ⟨?_, ?_⟩, ?_, ?_⟩ <;> simp only [Box.around] <;> linarith

/-- An empty tree has no image. -/
theorem empty_axis (p : Bool) {L tlo thi rlo rhi big : ℝ} (hsize : rhi = rlo + L) (hs : p = true → L < 2 * big)
    (h1 : rlo ≤ tlo) (h2 : thi ≤ rhi) (k : ℤ) (hp : p = true) : ¬ (big ≤ thi + k * L ∧ tlo + k * L ≤ -big) := by
  rintro ⟨a, b⟩
  have := hs hp
  linarith

theorem images_spec (hW : World d f big T) {a b : ℕ} (ha : a < d.n) (hb : b < d.n) :
    ∃ N S, (∀ fuel, N ≤ fuel → imageShifts d.pa d.size ((T a).mom 0).vout (d.dom b) fuel = some S) ∧ S.Nodup ∧
      (∀ s ∈ S, Allowed d.pa s) ∧ (∀ s j, Allowed d.pa s → Touch (T a) (d.image b s) j → s ∈ S) ∧
      ((⟨0, 0, 0⟩ : Idx) ∈ S → S.head? = some ⟨0, 0, 0⟩) := by
  obtain ⟨keys, hB⟩ := hW.built a ha
  have hG := hB.good
  by_cases hp : d.pa.some
  · by_cases hne : (T a).eps = []
    · -- an empty tree
      have hroot := hG.mom_eq hG.linked.root
      have hnil : slice (T a).eps 0 keys.length = [] := by rw [hne]; simp [slice]
      rw [hnil] at hroot
      have hv : ((T a).mom 0).vout = Box.negative big := by rw [hroot]; rfl
      have hnone : ∀ s, ¬ ((Box.negative big).overlapped ((d.dom b).shift (shiftOf d.size s))) := by
        intro s
        rw [overlapped_shift_iff]
        have hpr := hW.proper b hb
        have hlo := hW.inRoot b hb (d.dom b).low ⟨⟨le_refl _, hpr.1⟩, ⟨le_refl _, hpr.2.1⟩, le_refl _, hpr.2.2⟩
        have hhi := hW.inRoot b hb (d.dom b).high ⟨⟨hpr.1, le_refl _⟩, ⟨hpr.2.1, le_refl _⟩, hpr.2.2, le_refl _⟩
        obtain ⟨s1, s2, s3⟩ := hW.small
        rintro ⟨hx, hy, hz⟩
        rcases hp with h | h | h
        · exact empty_axis d.pa.x (by simp [Dinfo.size]) s1 hlo.1.1 hhi.1.2 s.x h hx
        · exact empty_axis d.pa.y (by simp [Dinfo.size]) s2 hlo.2.1.1 hhi.2.1.2 s.y h hy
        · exact empty_axis d.pa.z (by simp [Dinfo.size]) s3 hlo.2.2.1 hhi.2.2.2 s.z h hz
      have hno0 : ¬ (Box.negative big).overlapped (d.dom b) := by
        have := hnone ⟨0, 0, 0⟩
        rwa [shiftOf_zero, shift_zero] at this
      have hlev : levelImages d.pa d.size (Box.negative big) (d.dom b) 1 = [] := by
        rw [List.eq_nil_iff_forall_not_mem]
        intro s hs
        rw [mem_levelImages _ _ _ _ 1 (le_refl _)] at hs
        exact hnone s hs.1.2
      refine ⟨1, [], fun fuel hf => ?_, List.nodup_nil, by simp, fun s j _ ht => ?_, by simp⟩
      · obtain ⟨g, rfl⟩ : ∃ g, fuel = g + 1 := ⟨fuel - 1, by omega⟩
        have hnp : ¬ (d.pa.x = false ∧ d.pa.y = false ∧ d.pa.z = false) := by
          rintro ⟨e1, e2, e3⟩
          rcases hp with h | h | h
          · rw [e1] at h; cases h
          · rw [e2] at h; cases h
          · rw [e3] at h; cases h
        rw [imageShifts, if_neg hnp, hv, imageLoop]
        simp [hlev, hno0]
      · have := touch_lt hG ht
        rw [hne] at this
        simp at this
    · obtain ⟨e, he⟩ := List.exists_mem_of_ne_nil _ hne
      obtain ⟨j, hj⟩ := List.mem_iff_getElem?.mp he
      have hlt := (List.getElem?_eq_some_iff.mp hj).1
      have hin := (hW.inDom a ha e he).mem
      have hr := hW.inRoot a ha _ hin
      have hout := (hG.mem_box hG.linked.root (Nat.zero_le j) (by rw [Nat.zero_add, ← hG.len]; exact hlt) hj).2.mem
        (mem_around_self e.pos (hW.radius a ha e he))
      have hpr := hW.proper b hb
      have hlo := hW.inRoot b hb (d.dom b).low ⟨⟨le_refl _, hpr.1⟩, ⟨le_refl _, hpr.2.1⟩, le_refl _, hpr.2.2⟩
      obtain ⟨N, S, h1, h2, h3, h4⟩ := imageShifts_spec d.pa hp d.root ((T a).mom 0).vout (d.dom b) hW.extent
        ⟨fun _ => ⟨le_trans hout.1.1 hr.1.2, le_trans hr.1.1 hout.1.2⟩,
         fun _ => ⟨le_trans hout.2.1.1 hr.2.1.2, le_trans hr.2.1.1 hout.2.1.2⟩,
         fun _ => ⟨le_trans hout.2.2.1 hr.2.2.2, le_trans hr.2.2.1 hout.2.2.2⟩⟩
        ⟨fun _ => ⟨hlo.1.2, le_trans hlo.1.1 hpr.1⟩, fun _ => ⟨hlo.2.1.2, le_trans hlo.2.1.1 hpr.2.1⟩,
         fun _ => ⟨hlo.2.2.2, le_trans hlo.2.2.1 hpr.2.2⟩⟩
      refine ⟨N, S, h1, h2, fun s hs => ((h3 s).mp hs).1, fun s j hs ht => (h3 s).mpr ⟨hs, touch_listed hG ht⟩, fun h0 => ?_⟩
      apply h4
      have := ((h3 _).mp h0).2
      rwa [shiftOf_zero, shift_zero] at this
  · have hnp : d.pa.x = false ∧ d.pa.y = false ∧ d.pa.z = false := by
      simp only [Axes.some, not_or, Bool.not_eq_true] at hp
      exact hp
    refine ⟨0, [⟨0, 0, 0⟩], fun fuel _ => ?_, List.nodup_singleton _, ?_, ?_, fun _ => rfl⟩
    · rw [imageShifts, if_pos hnp]
    · intro s hs
      obtain rfl := List.mem_singleton.mp hs
      exact ⟨fun _ => rfl, fun _ => rfl, fun _ => rfl⟩
    · intro s j hs _
      rw [List.mem_singleton]
      ext
      · exact hs.1 hnp.1
      · exact hs.2.1 hnp.2.1
      · exact hs.2.2 hnp.2.2

/-- The first step finds the right particles. -/
theorem scatterTo_spec (hW : World d f big T) {a b : ℕ} (ha : a < d.n) (hb : b < d.n) :
    ∃ N im, (∀ fuel, N ≤ fuel → scatterTo d (T a) a b fuel = some im) ∧ Scattered d (T a) (a = b) b im := by
  obtain ⟨keys, hB⟩ := hW.built a ha
  have hG := hB.good
  obtain ⟨N, S, h1, h2, h3, h4, h5⟩ := images_spec hW ha hb
  obtain ⟨im, g1, g2⟩ := scatterImages_spec hG d a b S h2 h3 h4 h5 (by
    rintro rfl s j ht
    have hlt := touch_lt hG ht
    obtain ⟨e, he⟩ : ∃ e, (T a).eps[j]? = some e := ⟨_, List.getElem?_eq_getElem hlt⟩
    rw [image_zero]
    exact touch_of_mem hG he (hW.inDom a ha e (List.mem_of_getElem? he)).mem
      (mem_around_self e.pos (hW.radius a ha e (List.mem_of_getElem? he))))
  exact ⟨N, im, fun fuel hf => by rw [scatterTo, h1 fuel hf]; exact g1, g2⟩

/-! ### the second step -/

theorem walkImages_spec {B : MTree α} {keysB : List (BitVec 64)} (hB : Good big keysB B) (build : List (Ep α) → Option (MTree α))
    (hb : Builds f big build) (i : ℕ) (bs : List (Idx × List (Ep α))) (h1 : ∀ x ∈ bs, x.2 ≠ [])
    (h2 : ∀ x ∈ bs, ∀ e ∈ x.2, Morton.InRoot f e.pos) :
    ∃ im, walkImages d build B i bs = some im ∧ im.map Prod.fst = bs.map Prod.fst ∧
      (∀ x ∈ im, x.2.Nodup ∧ ∀ j ∈ x.2, ∃ l, InLeaf B j 0 l ∧ ¬ (B.mom l).vout.overlapped (d.image i x.1)) ∧
      (∀ y ∈ bs, ∃ x ∈ im, x.1 = y.1 ∧ ∀ e ∈ y.2, ∀ j l, InLeaf B j 0 l → ¬ (B.mom l).vout.overlapped (d.image i y.1) →
        (∃ p, Box.Mem p (B.mom l).vin ∧ Box.Mem p (Box.around e.pos e.rs)) → j ∈ x.2) := by
  induction bs with
  | nil => exact ⟨[], rfl, rfl, by simp, by simp⟩
  | cons y bs ih =>
    obtain ⟨s, es⟩ := y
    obtain ⟨im, g1, g2, g3, g4⟩ := ih (fun x hx => h1 x (List.mem_cons_of_mem _ hx)) (fun x hx => h2 x (List.mem_cons_of_mem _ hx))
    obtain ⟨A, k1, keysA, k2, _, k4, _⟩ := hb es (h1 _ List.mem_cons_self) (h2 _ List.mem_cons_self)
    have hA := k2.good
    have hne : keysA ≠ [] := by
      intro h
      have hl := hA.len
      rw [h, k4.length_eq, List.length_nil, List.length_eq_zero_iff] at hl
      exact h1 _ List.mem_cons_self hl
    obtain ⟨L, l1, l2, _, l4, l5, _⟩ := doubleWalkTop_spec hA hne (d.image i s) hB
    refine ⟨(s, L) :: im, by simp only [walkImages, k1, l1, g1], by rw [List.map_cons, List.map_cons, g2], ?_, ?_⟩
    · intro x hx
      rcases List.mem_cons.mp hx with rfl | hx
      · exact ⟨l2.imp (fun h => by omega), l5⟩
      · exact g3 x hx
    · intro y hy
      rcases List.mem_cons.mp hy with rfl | hy
      · refine ⟨(s, L), List.mem_cons_self, rfl, fun e he j l hl hn hp => ?_⟩
        apply l4 j l hl
        refine ⟨hn, ?_⟩
        obtain ⟨p, p1, p2⟩ := hp
        obtain ⟨m, hm⟩ := List.mem_iff_getElem?.mp (k4.mem_iff.mpr he)
        have ht : Touch A (B.mom l).vin m := touch_of_mem hA hm p1 p2
        obtain ⟨l', t1, t2⟩ := ht
        exact ⟨m, l', t1, (Box.overlapped_comm _ _).mpr t2⟩
      · obtain ⟨x, x1, x2, x3⟩ := g4 y hy
        exact ⟨x, List.mem_cons_of_mem _ x1, x2, x3⟩

/-- What `FindExchangeParticleDoubleWalk` finds for one rank. -/
structure Doubled (d : Dinfo) (B : MTree α) (own : Prop) (i : ℕ) (eps : List (Ep α)) (im im2 : List (Idx × List ℕ)) : Prop where
  nodup : (im2.map Prod.fst).Nodup
  allowed : ∀ x ∈ im2, Allowed d.pa x.1
  list : ∀ x ∈ im2, x.2.Nodup
  sound : ∀ x ∈ im2, ∀ j ∈ x.2, (∃ l, InLeaf B j 0 l ∧ ¬ (B.mom l).vout.overlapped (d.image i x.1)) ∧ (own → x.1 ≠ ⟨0, 0, 0⟩)
  source : ∀ x ∈ im2, ∃ y ∈ im, y.1 = x.1.neg ∧ y.2 ≠ []
  complete : ∀ y ∈ im, ∀ k ∈ y.2, ∀ e, eps[k]? = some e → ∀ j l, InLeaf B j 0 l →
    ¬ (B.mom l).vout.overlapped (d.image i y.1.neg) →
    (∃ p, Box.Mem p (B.mom l).vin ∧ Box.Mem p (Box.around (e.pos - shiftOf d.size y.1) e.rs)) →
    ∃ x ∈ im2, x.1 = y.1.neg ∧ j ∈ x.2

theorem shiftOf_neg (size : V3) (s : Idx) : shiftOf size s.neg = -shiftOf size s := by
  ext <;> simp [shiftOf, Idx.neg]

theorem World.contained (hW : World d f big T) {r : ℕ} (hr : r < d.n) {e : Ep α} (he : e ∈ (T r).eps) :
    d.root.contained e.pos := by
  rw [Box.contained_iff]
  have h := hW.inDom r hr e he
  have hpr := hW.proper r hr
  have hlo := hW.inRoot r hr (d.dom r).low ⟨⟨le_refl _, hpr.1⟩, ⟨le_refl _, hpr.2.1⟩, le_refl _, hpr.2.2⟩
  have hhi := hW.inRoot r hr (d.dom r).high ⟨⟨hpr.1, le_refl _⟩, ⟨hpr.2.1, le_refl _⟩, hpr.2.2, le_refl _⟩
  obtain ⟨⟨a1, a2⟩, ⟨a3, a4⟩, a5, a6⟩ := h
  exact ⟨⟨le_trans hlo.1.1 a1, lt_of_lt_of_le a2 hhi.1.2⟩, ⟨le_trans hlo.2.1.1 a3, lt_of_lt_of_le a4 hhi.2.1.2⟩,
    le_trans hlo.2.2.1 a5, lt_of_lt_of_le a6 hhi.2.2.2⟩

theorem flatMap_filter_ne (eps : List (Ep α)) (size : V3) (im : List (Idx × List ℕ)) :
    ((im.filter (fun x => decide (x.2 ≠ []))).map (fun x => (x.1.neg, pk eps size x))).flatMap Prod.snd =
      im.flatMap (pk eps size) := by
  induction im with
  | nil => rfl
  | cons x im ih =>
    obtain ⟨s, l⟩ := x
    by_cases h : l = []
    · subst h
      rw [List.filter_cons_of_neg (by simp), ih, List.flatMap_cons]
      simp [pk]
    · rw [List.filter_cons_of_pos (by simpa using h), List.map_cons, List.flatMap_cons, List.flatMap_cons, ih]

theorem le_maxLev (im : List (Idx × List ℕ)) : ∃ N, ∀ x ∈ im, x.1.lev ≤ N := by
  induction im with
  | nil => exact ⟨0, by simp⟩
  | cons x im ih =>
    obtain ⟨N, hN⟩ := ih
    refine ⟨max x.1.lev N, fun y hy => ?_⟩
    rcases List.mem_cons.mp hy with rfl | hy
    · exact le_max_left _ _
    · exact le_trans (hN y hy) (le_max_right _ _)

/-- The second step finds the right particles: `im` is what rank `b` sent to rank `a` in the first step. -/
theorem doubleTo_spec (hW : World d f big T) {a b : ℕ} (ha : a < d.n) (hb : b < d.n) (build : List (Ep α) → Option (MTree α))
    (hbuild : Builds f big build) (im : List (Idx × List ℕ)) (him : Scattered d (T b) (b = a) a im) :
    ∃ N im2, (∀ fuel, N ≤ fuel → doubleTo d build (T a) b (im.flatMap (pk (T b).eps d.size)) fuel = some im2) ∧
      Doubled d (T a) (a = b) b (T b).eps im im2 := by
  obtain ⟨keysA, hBA⟩ := hW.built a ha
  obtain ⟨keysB, hBB⟩ := hW.built b hb
  have hGA := hBA.good
  have hGB := hBB.good
  have hbl : ∀ y ∈ (im.filter (fun x => decide (x.2 ≠ []))).map (fun x => (x.1.neg, pk (T b).eps d.size x)),
      ∃ x ∈ im, x.2 ≠ [] ∧ y = (x.1.neg, pk (T b).eps d.size x) := by
    intro y hy
    obtain ⟨x, hx, rfl⟩ := List.mem_map.mp hy
    rw [List.mem_filter, decide_eq_true_eq] at hx
    exact ⟨x, hx.1, hx.2, rfl⟩
  obtain ⟨N, hN⟩ := le_maxLev im
  have hne : ∀ y ∈ (im.filter (fun x => decide (x.2 ≠ []))).map (fun x => (x.1.neg, pk (T b).eps d.size x)), y.2 ≠ [] := by
    intro y hy
    obtain ⟨x, x1, x2, rfl⟩ := hbl y hy
    obtain ⟨j, hj⟩ := List.exists_mem_of_ne_nil _ x2
    have hlt := touch_lt hGB (him.sound x x1 j hj).1
    exact List.ne_nil_of_mem (mem_pk.mpr ⟨j, hj, _, List.getElem?_eq_getElem hlt, rfl⟩)
  have hid : ∀ fuel, N ≤ fuel → ∀ y ∈ (im.filter (fun x => decide (x.2 ≠ []))).map (fun x => (x.1.neg, pk (T b).eps d.size x)),
      ∀ e ∈ y.2, imageId d.pa d.root e.pos fuel = some y.1 := by
    intro fuel hf y hy e he
    obtain ⟨x, x1, x2, rfl⟩ := hbl y hy
    obtain ⟨j, hj, e', h1, rfl⟩ := mem_pk.mp he
    have hpos : (moved e' (shiftOf d.size x.1)).pos = e'.pos + shiftOf (d.root.high - d.root.low) x.1.neg := by
      rw [shiftOf_neg]
      ext <;> simp [moved, Dinfo.size, sub_eq_add_neg]
    rw [hpos]
    exact imageId_spec d.pa d.root hW.extent e'.pos (hW.contained hb (List.mem_of_getElem? h1)) x.1.neg
      (him.allowed x x1).neg fuel (by rw [lev_neg]; exact le_trans (hN x x1) hf)
  have hnd : (((im.filter (fun x => decide (x.2 ≠ []))).map (fun x => (x.1.neg, pk (T b).eps d.size x))).map Prod.fst).Nodup := by
    rw [List.map_map]
    have : (Prod.fst ∘ fun x => (x.1.neg, pk (T b).eps d.size x)) = (Idx.neg ∘ Prod.fst : Idx × List ℕ → Idx) := rfl
    rw [this, ← List.map_map]
    apply List.Nodup.map
    · intro s t h
      have := congrArg Idx.neg h
      rwa [neg_neg', neg_neg'] at this
    · exact (him.nodup.sublist (List.filter_sublist.map _))
  have hno : noImage ∉ ((im.filter (fun x => decide (x.2 ≠ []))).map (fun x => (x.1.neg, pk (T b).eps d.size x))).map Prod.fst := by
    intro h
    obtain ⟨y, hy, h0⟩ := List.mem_map.mp h
    obtain ⟨x, x1, x2, rfl⟩ := hbl y hy
    obtain ⟨j, hj⟩ := List.exists_mem_of_ne_nil _ x2
    have hl := touch_listed hGB (him.sound x x1 j hj).1
    have hx : x.1 = ⟨9999, 9999, 9999⟩ := by
      have := congrArg Idx.neg h0
      simp only [neg_neg'] at this
      rw [this]; rfl
    rw [hx] at hl
    exact hW.near (by rw [← hx]; exact him.allowed x x1) b hb a ha hl
  have hcell : ∀ y ∈ (im.filter (fun x => decide (x.2 ≠ []))).map (fun x => (x.1.neg, pk (T b).eps d.size x)),
      ∀ e ∈ y.2, Morton.InRoot f e.pos := by
    intro y hy e he
    obtain ⟨x, x1, x2, rfl⟩ := hbl y hy
    obtain ⟨j, hj, e', h1, rfl⟩ := mem_pk.mp he
    exact (hW.cell b hb a ha x.1 (him.allowed x x1) (touch_listed hGB (him.sound x x1 j hj).1)).1 e' (List.mem_of_getElem? h1)
  obtain ⟨im2, g1, g2, g3, g4⟩ := walkImages_spec (d := d) hGA build hbuild b _ hne hcell
  have hfst : ∀ x ∈ im2, ∃ y ∈ im, y.1 = x.1.neg ∧ y.2 ≠ [] := by
    intro x hx
    have : x.1 ∈ im2.map Prod.fst := List.mem_map.mpr ⟨x, hx, rfl⟩
    rw [g2] at this
    obtain ⟨y, hy, h0⟩ := List.mem_map.mp this
    obtain ⟨z, z1, z2, rfl⟩ := hbl y hy
    refine ⟨z, z1, ?_, z2⟩
    rw [← h0, neg_neg']
  refine ⟨N, im2, fun fuel hf => ?_, ⟨?_, ?_, ?_, ?_, hfst, ?_⟩⟩
  · rw [doubleTo, ← flatMap_filter_ne, splitLoop_blocks d fuel _ noImage [] hne (hid fuel hf) hnd hno]
    exact g1
  · rw [g2]; exact hnd
  · intro x hx
    obtain ⟨y, y1, y2, _⟩ := hfst x hx
    have := (him.allowed y y1).neg
    rwa [y2, neg_neg'] at this
  · exact fun x hx => (g3 x hx).1
  · intro x hx j hj
    refine ⟨(g3 x hx).2 j hj, fun hab h0 => ?_⟩
    obtain ⟨y, y1, y2, y3⟩ := hfst x hx
    obtain ⟨k, hk⟩ := List.exists_mem_of_ne_nil _ y3
    apply (him.sound y y1 k hk).2 hab.symm
    rw [y2, h0]; rfl
  · intro y hy k hk e he j l hl hn hp
    have hyb : (y.1.neg, pk (T b).eps d.size y) ∈ (im.filter (fun x => decide (x.2 ≠ []))).map (fun x => (x.1.neg, pk (T b).eps d.size x)) := by
      refine List.mem_map.mpr ⟨y, ?_, rfl⟩
      rw [List.mem_filter, decide_eq_true_eq]
      exact ⟨hy, List.ne_nil_of_mem hk⟩
    obtain ⟨x, x1, x2, x3⟩ := g4 _ hyb
    exact ⟨x, x1, x2, x3 (moved e (shiftOf d.size y.1)) (mem_pk.mpr ⟨k, hk, e, he, rfl⟩) j l hl hn hp⟩

/-! ### both steps -/

/-- Where the particles of a table come from: particle number and displacement. -/
def origins (im : List (Idx × List ℕ)) : List (ℕ × Idx) := im.flatMap (fun x => x.2.map (fun j => (j, x.1.neg)))

theorem mem_origins {im : List (Idx × List ℕ)} {j : ℕ} {k : Idx} : (j, k) ∈ origins im ↔ ∃ x ∈ im, x.1 = k.neg ∧ j ∈ x.2 := by
  simp only [origins, List.mem_flatMap, List.mem_map, Prod.mk.injEq]
  constructor
  · rintro ⟨x, hx, j', hj', rfl, rfl⟩
    exact ⟨x, hx, (neg_neg' _).symm, hj'⟩
  · rintro ⟨x, hx, h, hj⟩
    exact ⟨x, hx, j, hj, rfl, by rw [h, neg_neg']⟩

theorem origins_nodup {im : List (Idx × List ℕ)} (h1 : (im.map Prod.fst).Nodup) (h2 : ∀ x ∈ im, x.2.Nodup) :
    (origins im).Nodup := by
  induction im with
  | nil => exact List.nodup_nil
  | cons x im ih =>
    rw [List.map_cons, List.nodup_cons] at h1
    have e : origins (x :: im) = x.2.map (fun j => (j, x.1.neg)) ++ origins im := rfl
    rw [e, List.nodup_append]
    refine ⟨(h2 x List.mem_cons_self).map (fun a b h => (Prod.mk.inj h).1),
      ih h1.2 (fun y hy => h2 y (List.mem_cons_of_mem _ hy)), fun o ho o' ho' hoo => ?_⟩
    subst hoo
    obtain ⟨j, hj, rfl⟩ := List.mem_map.mp ho
    obtain ⟨y, y1, y2, _⟩ := mem_origins.mp ho'
    rw [neg_neg'] at y2
    exact h1.1 (List.mem_map.mpr ⟨y, y1, y2⟩)

theorem origins_append (im im' : List (Idx × List ℕ)) : origins (im ++ im') = origins im ++ origins im' := by
  simp [origins]

/-- A particle of rank `b` and the copy of one of rank `a` displaced by `k` are within a search radius. -/
def Close (d : Dinfo) (ei ej : Ep α) (k : Idx) : Prop :=
  (ei.pos - (ej.pos + shiftOf d.size k)).normSq ≤ ei.rs * ei.rs ∨ (ei.pos - (ej.pos + shiftOf d.size k)).normSq ≤ ej.rs * ej.rs

/-- The table rank `a` uses for rank `b`. -/
structure Tabled (d : Dinfo) (T : ℕ → MTree α) (a b : ℕ) (im : List (Idx × List ℕ)) : Prop where
  nodup : (origins im).Nodup
  range : ∀ x ∈ im, ∀ j ∈ x.2, j < (T a).eps.length
  allowed : ∀ x ∈ im, Allowed d.pa x.1
  own : ∀ j k, (j, k) ∈ origins im → a = b → k ≠ ⟨0, 0, 0⟩
  listed : ∀ j k, (j, k) ∈ origins im → ((T a).mom 0).vout.overlapped (d.image b k.neg) ∨ ((T b).mom 0).vout.overlapped (d.image a k)
  complete : ∀ (i j : ℕ) (ei ej : Ep α) (k : Idx), (T b).eps[i]? = some ei → (T a).eps[j]? = some ej → Allowed d.pa k → (a = b → k ≠ ⟨0, 0, 0⟩) →
    Close d ei ej k → (j, k) ∈ origins im

theorem touch_image {B : MTree α} {keys : List (BitVec 64)} (hG : Good big keys B) {i : ℕ} {s : Idx} {j : ℕ} {e : Ep α} {q : V3}
    (hj : B.eps[j]? = some e) (hr : 0 ≤ e.rs) (hq : Box.Mem q (d.dom i))
    (h : (q - (e.pos - shiftOf d.size s)).normSq ≤ e.rs * e.rs) : Touch B (d.image i s) j := by
  refine touch_of_mem hG hj (p := q + shiftOf d.size s) ?_ (normSq_around hr ?_)
  · rw [Dinfo.image, Box.mem_shift]
    have : q + shiftOf d.size s - shiftOf d.size s = q := by ext <;> simp
    rw [this]; exact hq
  · have : q + shiftOf d.size s - e.pos = q - (e.pos - shiftOf d.size s) := by ext <;> simp <;> ring
    rw [this]; exact h

theorem table_spec (hW : World d f big T) (build : ℕ → List (Ep α) → Option (MTree α)) (hbuild : ∀ r < d.n, Builds f big (build r))
    {a b : ℕ} (ha : a < d.n) (hb : b < d.n) :
    ∃ N im, (∀ fuel, N ≤ fuel → table d build T a b fuel = some im) ∧ Tabled d T a b im := by
  obtain ⟨keysA, hBA⟩ := hW.built a ha
  obtain ⟨keysB, hBB⟩ := hW.built b hb
  have hGA := hBA.good
  have hGB := hBB.good
  obtain ⟨N1, im1, e1, s1⟩ := scatterTo_spec hW ha hb
  obtain ⟨N2, im0, e2, s2⟩ := scatterTo_spec hW hb ha
  obtain ⟨N3, im2, e3, s3⟩ := doubleTo_spec hW ha hb (build a) (hbuild a ha) im0 s2
  have hrange0 : ∀ x ∈ im0, ∀ j ∈ x.2, j < (T b).eps.length := fun x hx j hj => touch_lt hGB (s2.sound x hx j hj).1
  refine ⟨max N1 (max N2 N3), im1 ++ im2, fun fuel hf => ?_, ⟨?_, ?_, ?_, ?_, ?_, ?_⟩⟩
  · rw [table, e1 fuel (by omega), recv1, e2 fuel (by omega)]
    simp only
    rw [pack_eq _ _ _ hrange0]
    simp only
    rw [e3 fuel (by omega)]
  · rw [origins_append, List.nodup_append]
    refine ⟨origins_nodup s1.nodup s1.list, origins_nodup s3.nodup s3.list, fun o ho o' ho' hoo => ?_⟩
    subst hoo
    obtain ⟨j, k⟩ := o
    obtain ⟨x, x1, x2, x3⟩ := mem_origins.mp ho
    obtain ⟨y, y1, y2, y3⟩ := mem_origins.mp ho'
    obtain ⟨l, l1, l2⟩ := (s1.sound x x1 j x3).1
    obtain ⟨⟨l', l1', l2'⟩, _⟩ := s3.sound y y1 j y3
    obtain rfl := inLeaf_unique hGA.limit hGA.linked.root j l l' l1 l1'
    rw [x2, ← y2] at l2
    exact l2' ((Box.overlapped_comm _ _).mpr l2)
  · intro x hx j hj
    rcases List.mem_append.mp hx with hx | hx
    · exact touch_lt hGA (s1.sound x hx j hj).1
    · obtain ⟨⟨l, l1, _⟩, _⟩ := s3.sound x hx j hj
      have := (l1.range hGA.limit hGA.linked.root).1
      rw [hGA.len]; omega
  · intro x hx
    rcases List.mem_append.mp hx with hx | hx
    · exact s1.allowed x hx
    · exact s3.allowed x hx
  · intro j k hjk hab hk
    rw [origins_append, List.mem_append] at hjk
    rcases hjk with h | h
    · obtain ⟨x, x1, x2, x3⟩ := mem_origins.mp h
      apply (s1.sound x x1 j x3).2 hab
      rw [x2, hk]; rfl
    · obtain ⟨x, x1, x2, x3⟩ := mem_origins.mp h
      apply (s3.sound x x1 j x3).2 hab
      rw [x2, hk]; rfl
  · intro j k hjk
    rw [origins_append, List.mem_append] at hjk
    rcases hjk with h | h
    · obtain ⟨x, x1, x2, x3⟩ := mem_origins.mp h
      left
      rw [← x2]
      exact touch_listed hGA (s1.sound x x1 j x3).1
    · obtain ⟨x, x1, x2, x3⟩ := mem_origins.mp h
      obtain ⟨y, y1, y2, y3⟩ := s3.source x x1
      right
      obtain ⟨i, hi⟩ := List.exists_mem_of_ne_nil _ y3
      have := touch_listed hGB (s2.sound y y1 i hi).1
      rwa [y2, x2, neg_neg'] at this
  · intro i j ei ej k hi hj hk hne hc
    have hri := hW.radius b hb ei (List.mem_of_getElem? hi)
    have hrj := hW.radius a ha ej (List.mem_of_getElem? hj)
    have hdi := (hW.inDom b hb ei (List.mem_of_getElem? hi)).mem
    have hdj := (hW.inDom a ha ej (List.mem_of_getElem? hj)).mem
    have hsub : ej.pos - shiftOf d.size k.neg = ej.pos + shiftOf d.size k := by
      rw [shiftOf_neg]; ext <;> simp
    have hneg : ∀ s : Idx, s ≠ ⟨0, 0, 0⟩ → s.neg ≠ ⟨0, 0, 0⟩ := by
      intro s hs h0
      have := congrArg Idx.neg h0
      rw [neg_neg'] at this
      exact hs (by rw [this]; rfl)
    -- sent in the first step
    have first : Touch (T a) (d.image b k.neg) j → (j, k) ∈ origins (im1 ++ im2) := by
      intro ht
      obtain ⟨x, x1, x2, x3⟩ := s1.complete k.neg j hk.neg ht (fun h => hneg k (hne h))
      rw [origins_append, List.mem_append]
      exact Or.inl (mem_origins.mpr ⟨x, x1, x2, x3⟩)
    rcases hc with hc | hc
    · obtain ⟨l, hl⟩ := exists_inLeaf hGA.linked.root j (Nat.zero_le _) (by
        have := (List.getElem?_eq_some_iff.mp hj).1
        rw [← hGA.len]; omega)
      by_cases ho : ((T a).mom l).vout.overlapped (d.image b k.neg)
      · exact first ⟨l, hl, (Box.overlapped_comm _ _).mp ho⟩
      · have hd : (ej.pos - (ei.pos - shiftOf d.size k)).normSq ≤ ei.rs * ei.rs := by
          have : (ej.pos - (ei.pos - shiftOf d.size k)).normSq = (ei.pos - (ej.pos + shiftOf d.size k)).normSq := by
            simp only [V3.normSq, V3.dot, V3.sub_x, V3.sub_y, V3.sub_z, V3.add_x, V3.add_y, V3.add_z]; ring
          rw [this]; exact hc
        have hti : Touch (T b) (d.image a k) i := touch_image hGB hi hri hdj hd
        obtain ⟨y, y1, y2, y3⟩ := s2.complete k i hk hti (fun h => hne h.symm)
        obtain ⟨_, lev', a', n', f1, f2, f3, _⟩ := hl.range hGA.limit hGA.linked.root
        obtain ⟨x, x1, x2, x3⟩ := s3.complete y y1 i y3 ei hi j l hl (by rw [y2]; exact ho)
          ⟨ej.pos, (hGA.mem_box f1 f2 f3 hj).1, normSq_around hri (by rw [y2]; exact hd)⟩
        rw [origins_append, List.mem_append]
        exact Or.inr (mem_origins.mpr ⟨x, x1, by rw [x2, y2], x3⟩)
    · exact first (touch_image hGA hj hrj hdi (by rw [hsub]; exact hc))

/-- A bound that serves all ranks. -/
theorem uniform {n : ℕ} {P : ℕ → ℕ → Prop} (h : ∀ i < n, ∃ N, ∀ fuel, N ≤ fuel → P i fuel) :
    ∃ N, ∀ fuel, N ≤ fuel → ∀ i < n, P i fuel := by
  induction n with
  | zero => exact ⟨0, fun _ _ i hi => absurd hi (Nat.not_lt_zero _)⟩
  | succ n ih =>
    obtain ⟨N, hN⟩ := ih (fun i hi => h i (by omega))
    obtain ⟨M, hM⟩ := h n (by omega)
    refine ⟨max N M, fun fuel hf i hi => ?_⟩
    by_cases hin : i = n
    · subst hin; exact hM fuel (by omega)
    · exact hN fuel (by omega) i (by omega)

theorem pk_origins (T : ℕ → MTree α) (a : ℕ) (im : List (Idx × List ℕ)) (hr : ∀ x ∈ im, ∀ j ∈ x.2, j < (T a).eps.length) :
    (im.flatMap (pk (T a).eps d.size)).map some = (origins im).map (fun o => copyOf d T (a, o.1, o.2)) := by
  induction im with
  | nil => rfl
  | cons x im ih =>
    have e : origins (x :: im) = x.2.map (fun j => (j, x.1.neg)) ++ origins im := rfl
    rw [List.flatMap_cons, e, List.map_append, List.map_append, ih (fun y hy => hr y (List.mem_cons_of_mem _ hy))]
    congr 1
    have hx := hr x List.mem_cons_self
    obtain ⟨s, l⟩ := x
    simp only [pk] at hx ⊢
    clear e ih hr
    induction l with
    | nil => rfl
    | cons j l ihl =>
      rw [List.map_cons, List.map_cons, ← ihl (fun i hi => hx i (List.mem_cons_of_mem _ hi)), List.filterMap_cons,
        List.getElem?_eq_getElem (hx j List.mem_cons_self)]
      simp only [Option.map_some, List.map_cons, copyOf, List.getElem?_eq_getElem (hx j List.mem_cons_self), shiftOf_neg]
      congr 2

end world

end Verif.Let
