import Verif.Model.Wrap
import Verif.Props.Stats
import Verif.Props.Links
/-! Property C66: bodies are put back into the periodic box. -/
namespace Verif
open Stats Wrap

/-! ### one axis -/

theorem axis_unique {fl : ℝ → ℝ} {low high x a b : ℝ} (ha : Axis fl low high x a) (hb : Axis fl low high x b) : a = b := by
  obtain ⟨y, z, h1, h2, rfl⟩ := ha
  obtain ⟨y', z', h1', h2', rfl⟩ := hb
  have e := h1.unique h1'
  subst e
  have e := h2.unique h2'
  subst e
  rfl

theorem axis_fixed (fl : ℝ → ℝ) {low high x : ℝ} (h1 : low ≤ x) (h2 : x < high) : Axis fl low high x x :=
  ⟨x, x, WhileEnds.of_not (not_lt.mpr h1), WhileEnds.of_not (not_le.mpr h2), by rw [if_neg h2.ne]⟩

theorem axis_exact {low high : ℝ} (h : low < high) (x : ℝ) :
    ∃ x', Axis id low high x x' ∧ low ≤ x' ∧ x' < high ∧ GeoUtil.Spec.IsImage (high - low) x x' := by
  have hL : 0 < high - low := by linarith
  obtain ⟨n, hn⟩ := exists_nat_gt ((low - x) / (high - low))
  obtain ⟨y, hy⟩ := GeoUtil.up_ends (lb := low) hL n x (by rw [div_lt_iff₀ hL] at hn; linarith)
  obtain ⟨m, hm⟩ := exists_nat_gt ((y - high) / (high - low))
  obtain ⟨z, hz⟩ := GeoUtil.down_ends (ub := high) hL m y (by rw [div_lt_iff₀ hL] at hm; linarith)
  obtain ⟨⟨k, hk⟩, hylow⟩ := hy.invariant (fun w => GeoUtil.Spec.IsImage (high - low) x w) (by
    rintro w ⟨k, rfl⟩ _
    exact ⟨k + 1, by push_cast; ring⟩) ⟨0, by simp⟩
  obtain ⟨⟨⟨m, hm⟩, hge⟩, hlt⟩ := hz.invariant (fun w => GeoUtil.Spec.IsImage (high - low) x w ∧ low ≤ w) (by
    rintro w ⟨⟨m, rfl⟩, hw⟩ hc
    exact ⟨⟨m - 1, by push_cast; ring⟩, by linarith⟩) ⟨⟨k, hk⟩, by push Not at hylow; exact hylow⟩
  push Not at hlt
  exact ⟨z, ⟨y, z, hy, hz, by rw [if_neg hlt.ne]⟩, hge, hlt, m, hm⟩

/-! ### C66 -/

/-- Everything but the position is the same. -/
def OnlyMoved (s s' : Sylinder) : Prop := { s' with pos := s.pos } = s

/-- **C66** in exact arithmetic.  With the domain set from the configuration and `low < high` on periodic axes, the call ends with exactly one result: the same
bodies in the same order, each with its centre in `[low, high)` on the periodic axes, moved by a whole number of periods; on the other
axes the centre stays, if it is less than `largeFloat` away from 0. -/
theorem C66_wrap (pbc : Fin 3 → Bool) (low high : Fin 3 → ℝ) (hper : ∀ k, pbc k = true → low k < high k) (d : Domain)
    (hd : setDomainInfo Domain.start pbc low high = some d) (bodies : List Sylinder) :
    ∃ bodies', ApplyBoxBC id d bodies bodies' ∧ (∀ b, ApplyBoxBC id d bodies b → b = bodies') ∧
      List.Forall₂ (fun s s' => OnlyMoved s s' ∧ ∀ k,
        (pbc k = true → low k ≤ Near.comp s'.pos k ∧ Near.comp s'.pos k < high k ∧ GeoUtil.Spec.IsImage (high k - low k) (Near.comp s.pos k) (Near.comp s'.pos k)) ∧
        (pbc k = false → |Near.comp s.pos k| < largeFloat → Near.comp s'.pos k = Near.comp s.pos k)) bodies bodies' := by
  have hle : ∀ k, low k ≤ high k := by
    by_contra h
    push Not at h
    rw [(C56_axes pbc low high).2 h] at hd
    cases hd
  obtain ⟨d', hd', -, h1, h2⟩ := (C56_axes pbc low high).1 hle
  rw [hd] at hd'
  cases hd'
  have hlf : (0:ℝ) < largeFloat := by unfold largeFloat; norm_num
  have hax : ∀ k, d.low k < d.high k := by
    intro k
    cases hk : pbc k with
    | true =>
      obtain ⟨e1, e2⟩ := h1 k hk (hper k hk)
      rw [e1, e2]
      exact hper k hk
    | false =>
      obtain ⟨e1, e2⟩ := h2 k (Or.inl hk)
      rw [e1, e2]
      linarith
  have hpos : ∀ p : V3, ∃ p', AdjustPos id d p p' ∧ (∀ q, AdjustPos id d p q → q = p') ∧ ∀ k,
      (pbc k = true → low k ≤ Near.comp p' k ∧ Near.comp p' k < high k ∧ GeoUtil.Spec.IsImage (high k - low k) (Near.comp p k) (Near.comp p' k)) ∧
      (pbc k = false → |Near.comp p k| < largeFloat → Near.comp p' k = Near.comp p k) := by
    intro p
    choose x hx using fun k => axis_exact (hax k) (Near.comp p k)
    have hc : ∀ k, Near.comp ⟨x 0, x 1, x 2⟩ k = x k := by
      intro k
      fin_cases k <;> simp [Near.comp]
    refine ⟨⟨x 0, x 1, x 2⟩, ?_, ?_, ?_⟩
    · intro k
      rw [hc]
      exact (hx k).1
    · intro q hq
      apply comp_ext
      intro k
      rw [hc]
      exact axis_unique (hq k) (hx k).1
    · intro k
      rw [hc]
      refine ⟨fun hk => ?_, fun hk hlt => ?_⟩
      · obtain ⟨e1, e2⟩ := h1 k hk (hper k hk)
        have := (hx k).2
        rwa [e1, e2] at this
      · obtain ⟨e1, e2⟩ := h2 k (Or.inl hk)
        have := (hx k).1
        rw [abs_lt] at hlt
        exact axis_unique this (axis_fixed id (by rw [e1]; exact hlt.1.le) (by rw [e2]; exact hlt.2))
  choose f hf using hpos
  refine ⟨bodies.map fun (s : Sylinder) => { s with pos := f s.pos }, ?_, ?_, ?_⟩
  · unfold ApplyBoxBC
    rw [List.forall₂_map_right_iff, List.forall₂_same]
    intro s _
    exact ⟨_, (hf s.pos).1, rfl⟩
  · intro b hb
    refine forall₂_det (fun (s : Sylinder) => { s with pos := f s.pos }) hb ?_
    rintro s _ s' ⟨p, hp, rfl⟩
    rw [(hf s.pos).2.1 p hp]
  · rw [List.forall₂_map_right_iff, List.forall₂_same]
    intro s _
    exact ⟨rfl, (hf s.pos).2.2⟩

/-- **C66** in rounded arithmetic: for every monotone rounding that represents `low` and `high - low`, a call that ends leaves the coordinate in `[low, high)`.  (Compare `C05_wrap_rounding_false`: the order of the two
loops matters.) -/
theorem C66_rounding (fl : ℝ → ℝ) (hmono : Monotone fl) (low high x x' : ℝ) (hlt : low < high) (hlow : fl low = low) (hL : fl (high - low) = high - low)
    (h : Axis fl low high x x') : low ≤ x' ∧ x' < high := by
  obtain ⟨y, z, h1, h2, rfl⟩ := h
  have hy := (h1.invariant (fun _ => True) (fun _ _ _ => trivial) trivial).2
  obtain ⟨hz, hz'⟩ := h2.invariant (fun w => low ≤ w) (by
    intro w _ hc
    rw [hL]
    calc low = fl low := hlow.symm
      _ ≤ fl (w - (high - low)) := hmono (by linarith)) (not_lt.mp hy)
  push Not at hz'
  rw [if_neg hz'.ne]
  exact ⟨hz, hz'⟩

/-- A coordinate in the box stays, in any arithmetic. -/
theorem C66_fixed (fl : ℝ → ℝ) (low high x : ℝ) (h1 : low ≤ x) (h2 : x < high) (x' : ℝ) : Axis fl low high x x' ↔ x' = x :=
  ⟨fun h => axis_unique h (axis_fixed fl h1 h2), fun h => by rw [h]; exact axis_fixed fl h1 h2⟩

/-- **C66** is false in rounded arithmetic if `high - low` has to be rounded: with any rounding that, like binary64, rounds `1 - 2⁻⁶⁰` to 1, the upper bound
of the box `[2⁻⁶⁰, 1)` is moved to 0, below the box. -/
theorem C66_rounding_false (fl : ℝ → ℝ) (h1 : fl (1 - (2 : ℝ) ^ (-60 : ℤ)) = 1) (h0 : fl 0 = 0) :
    Axis fl ((2 : ℝ) ^ (-60 : ℤ)) 1 1 0 ∧ ¬ ((2 : ℝ) ^ (-60 : ℤ)) ≤ 0 := by
  refine ⟨⟨1, 0, WhileEnds.of_not (by norm_num), WhileEnds.step (by norm_num) ?_, by norm_num⟩, by norm_num⟩
  rw [h1, sub_self, h0]
  exact WhileEnds.of_not (by norm_num)

/-- **C66** is false on axes that are not periodic for bodies at `largeFloat` and beyond: they are moved. -/
theorem C66_far_false (x : ℝ) (h1 : largeFloat ≤ x) : ∀ x', Axis id (-largeFloat) largeFloat x x' → x' ≠ x := by
  intro x' h
  have hlf : (0:ℝ) < largeFloat := by unfold largeFloat; norm_num
  obtain ⟨y, h2, -, h4, -⟩ := axis_exact (show -largeFloat < largeFloat by linarith) x
  rw [axis_unique h h2]
  linarith

/-- Binary64 meets the hypotheses: monotone, exact on the numbers used. -/
example : Monotone (id : ℝ → ℝ) ∧ (id : ℝ → ℝ) 0 = 0 ∧ (id : ℝ → ℝ) (10 - 0) = 10 - 0 := ⟨monotone_id, rfl, rfl⟩

example : ∃ fl : ℝ → ℝ, fl (1 - (2 : ℝ) ^ (-60 : ℤ)) = 1 ∧ fl 0 = 0 :=
  ⟨fun x => if 1 - (2 : ℝ) ^ (-54 : ℤ) ≤ x ∧ x ≤ 1 then 1 else x, by norm_num, by norm_num⟩

/-- A body at x = 12 in a box with x periodic of period 10 gets to x = 2. -/
example : ∃ d b, setDomainInfo Domain.start ![true, false, false] ![0, 0, 0] ![10, 10, 10] = some d ∧ ApplyBoxBC id d [rodAt 0 ⟨12, -3, 40⟩] [b] ∧
    0 ≤ b.pos.x ∧ b.pos.x < 10 ∧ b.pos.y = -3 := by
  obtain ⟨d, hd, -⟩ := (C56_axes ![true, false, false] ![0, 0, 0] ![10, 10, 10]).1 (by intro k; fin_cases k <;> simp)
  obtain ⟨bs, h1, -, h3⟩ := C66_wrap _ _ _ (by intro k _; fin_cases k <;> simp) d hd [rodAt 0 ⟨12, -3, 40⟩]
  cases h3 with
  | cons h h' =>
    cases h'
    refine ⟨d, _, hd, h1, ((h.2 0).1 rfl).1, ((h.2 0).1 rfl).2.1, ?_⟩
    exact (h.2 1).2 rfl (by
      have : (3:ℝ) < largeFloat := by unfold largeFloat; norm_num
      simpa [Near.comp, rodAt] using this)

/-- **C60** and **C66** together: bodies that `applyBoxBC` left, wherever they were before, are where the theorem on links wants them. -/
theorem C66_links (cfg : Links.Cfg) (hper : ∀ k, cfg.pbc k = true → cfg.low k < cfg.high k) (d : Domain) (hd : setDomainInfo Domain.start cfg.pbc cfg.low cfg.high = some d)
    (before after : List Sylinder) (h : ApplyBoxBC id d before after) :
    ∀ s ∈ after, ∀ k, cfg.pbc k = true → cfg.low k ≤ Near.comp s.pos k ∧ Near.comp s.pos k < cfg.high k := by
  obtain ⟨b, -, h2, h3⟩ := C66_wrap cfg.pbc cfg.low cfg.high hper d hd before
  rw [h2 after h]
  clear h2 h
  induction h3 with
  | nil => simp
  | cons h _ ih =>
    intro s hs k hk
    rcases List.mem_cons.1 hs with rfl | hs
    · exact ⟨((h.2 k).1 hk).1, ((h.2 k).1 hk).2.1⟩
    · exact ih s hs k hk

end Verif
