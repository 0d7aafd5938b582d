import Verif.Lemmas.Boundary
import Mathlib.Tactic.NormNum
/-! C33-C36: boundaries. -/
namespace Verif
open Verif.Boundary Verif.Spec.Boundary Verif.V3

/-- Direction and length of a vector. -/
theorem polar (v : V3) (h : v ≠ 0) : ∃ u : V3, norm u = 1 ∧ v = (norm v) • u :=
  ⟨normalized v, norm_normalized v h, (norm_smul_normalized v).symm⟩

theorem sphere_project_eq (b : SphereShell) (q u : V3) (hu : norm u = 1) (R : ℝ) (hR : 0 < R)
    (hq : q - b.center = R • u) :
    b.project q = some (b.center + b.radius • u, (if b.inside then -|R - b.radius| else |R - b.radius|) • u) := by
  have hn : norm (q - b.center) = R := by rw [hq, norm_smul, hu, abs_of_pos hR]; ring
  unfold SphereShell.project
  simp only [hn]
  rw [if_neg hR.ne', hq]
  have e : (b.radius * (1 / R)) • (R • u) = b.radius • u := by
    ext <;> simp <;> field_simp
  rw [e]
  congr 1
  refine Prod.ext ?_ ?_
  · ext <;> simp [add_comm]
  · by_cases ho : R > b.radius
    · have ha : |R - b.radius| = R - b.radius := abs_of_pos (by linarith)
      rw [ha]
      cases b.inside <;> simp [ho] <;> ext <;> simp <;> ring
    · have ha : |R - b.radius| = -(R - b.radius) := abs_of_nonpos (by linarith)
      rw [ha]
      cases b.inside <;> simp [ho] <;> ext <;> simp <;> ring

/-- Everywhere but at the centre, `SphereShell::project` gives the nearest point of the sphere and `delta` points from
it to the allowed side, as long as the distance of the query from the sphere.  Missing for C33: the centre. -/
theorem C33_sphere_partial (b : SphereShell) (hr : 0 < b.radius) (q : V3) (hq : q ≠ b.center) :
    ∃ p d, b.project q = some (p, d) ∧ Nearest (OnSphere b.center b.radius) q p ∧
      Along d (if b.inside then b.center - p else p - b.center) (q - p).norm := by
  obtain ⟨u, hu, hv⟩ := polar (q - b.center) (fun h => hq ((sub_eq_zero _ _).1 h))
  set R := norm (q - b.center) with hRdef
  have hR : 0 < R := norm_pos _ (fun h => hq ((sub_eq_zero _ _).1 h))
  refine ⟨_, _, sphere_project_eq b q u hu R hR hv, ⟨?_, ?_⟩, ?_, ?_⟩
  · unfold OnSphere
    have e : b.center + b.radius • u - b.center = b.radius • u := by ext <;> simp
    rw [e, norm_smul, hu, abs_of_pos hr]; ring
  · intro p' hp'
    have e : q - (b.center + b.radius • u) = (R - b.radius) • u := by
      have hx := congrArg V3.x hv; have hy := congrArg V3.y hv; have hz := congrArg V3.z hv
      simp at hx hy hz
      ext <;> simp <;> linarith
    rw [e, norm_smul, hu, mul_one]
    unfold OnSphere at hp'
    have := abs_norm_sub_le (q - b.center) (p' - b.center)
    rw [hp', ← hRdef] at this
    have e2 : q - b.center - (p' - b.center) = q - p' := by ext <;> simp
    rwa [e2] at this
  · have e : q - (b.center + b.radius • u) = (R - b.radius) • u := by
      have hx := congrArg V3.x hv; have hy := congrArg V3.y hv; have hz := congrArg V3.z hv
      simp at hx hy hz
      ext <;> simp <;> linarith
    rw [e, norm_smul, norm_smul, hu]
    cases b.inside <;> simp
  · refine ⟨|R - b.radius| / b.radius, by positivity, ?_⟩
    cases b.inside <;> ext <;> simp <;> field_simp

/-- At the centre the code divides by zero. -/
theorem C33_center_false (b : SphereShell) : b.project b.center = none := by
  have : norm (b.center - b.center) = 0 := by rw [(sub_eq_zero _ _).2 rfl, norm_zero]
  unfold SphereShell.project
  simp only [this, if_true]

/-- The wall: orthogonal projection, and `delta` along the normal as long as the distance from the plane. -/
theorem C34_wall (c n : V3) (hn : n ≠ 0) (q : V3) :
    let r := (Wall.make c n).project q
    Nearest (OnPlane c n) q r.1 ∧ Along r.2 n (q - r.1).norm ∧ ∃ t : ℝ, q - r.1 = t • n := by
  intro r
  have hu := normSq_normalized n hn
  set u := normalized n with hudef
  have hnp := norm_pos n hn
  have hnu : n = norm n • u := (norm_smul_normalized n).symm
  have hnu' : ∀ v : V3, dot v n = norm n * dot v u := by
    intro v
    conv_lhs => rw [hnu]
    simp only [dot, smul_x, smul_y, smul_z]; ring
  have h1 : r.1 = q - (dot (q - c) u) • u := rfl
  have h2 : q - r.1 = (dot (q - c) u) • u := by rw [h1]; ext <;> simp
  have hu1 : norm u = 1 := norm_normalized n hn
  have hdist : norm (q - r.1) = |dot (q - c) u| := by rw [h2, norm_smul, hu1, mul_one]
  have h3 : r.2 = |dot (q - c) u| • u := by
    have : r.2 = if dot (q - c) u < 0 then -(q - r.1) else q - r.1 := rfl
    rw [this, h2]
    by_cases ht : dot (q - c) u < 0
    · rw [if_pos ht, abs_of_neg ht]; ext <;> simp
    · rw [if_neg ht, abs_of_nonneg (not_lt.1 ht)]
  have hsm : ∀ k : ℝ, k • u = (k / norm n) • n := by
    intro k
    have : u = (1 / norm n) • n := normalized_eq n hn
    rw [this]; ext <;> simp <;> field_simp
  refine ⟨⟨?_, ?_⟩, ⟨?_, ?_⟩, ?_⟩
  · unfold OnPlane
    rw [hnu', h1]
    have : dot (q - (dot (q - c) u) • u - c) u = dot (q - c) u * (1 - dot u u) := by
      simp only [dot, sub_x, sub_y, sub_z, smul_x, smul_y, smul_z]; ring
    rw [this, hu]; ring
  · intro p' hp'
    unfold OnPlane at hp'
    rw [hnu'] at hp'
    have hp0 : dot (p' - c) u = 0 := by
      rcases mul_eq_zero.1 hp' with h | h
      · exact absurd h hnp.ne'
      · exact h
    rw [hdist]
    have e : dot (q - c) u = dot (q - p') u := by
      have : dot (q - c) u = dot (q - p') u + dot (p' - c) u := by
        simp only [dot, sub_x, sub_y, sub_z]; ring
      rw [this, hp0, add_zero]
    rw [e, ← Real.sqrt_sq_eq_abs]
    unfold norm
    apply Real.sqrt_le_sqrt
    have := dot_sq_le (q - p') u
    have h1 : normSq u = 1 := hu
    rw [h1, mul_one] at this
    exact this
  · rw [h3, hdist, norm_smul, hu1, abs_abs, mul_one]
  · exact ⟨|dot (q - c) u| / norm n, by positivity, by rw [h3, hsm]⟩
  · exact ⟨dot (q - c) u / norm n, by rw [h2, hsm]⟩

theorem tube_foot (c a p f : V3) (ha : a ≠ 0) (hf : IsFoot c a p f) :
    p - f = (p - c) - (dot (p - c) (normalized a)) • normalized a := by
  obtain ⟨⟨s, rfl⟩, h⟩ := hf
  have hu := normSq_normalized a ha
  have hna := norm_pos a ha
  have hau : a = norm a • normalized a := (norm_smul_normalized a).symm
  set u := normalized a
  have h1 : dot (p - (c + s • a)) a = norm a * (dot (p - c) u - s * norm a * dot u u) := by
    conv_lhs => rw [hau]
    simp only [dot, sub_x, sub_y, sub_z, add_x, add_y, add_z, smul_x, smul_y, smul_z]; ring
  rw [h1, hu] at h
  have h2 : s * norm a = dot (p - c) u := by
    rcases mul_eq_zero.1 h with h | h
    · exact absurd h hna.ne'
    · linarith
  rw [← h2]
  have hx := congrArg V3.x hau; have hy := congrArg V3.y hau; have hz := congrArg V3.z hau
  simp at hx hy hz
  ext <;> simp
  · rw [mul_assoc, ← hx]; ring
  · rw [mul_assoc, ← hy]; ring
  · rw [mul_assoc, ← hz]; ring

/-- Off the axis, `Tube::project` gives the nearest point of the cylinder and `delta` points from it radially to the
allowed side, as long as the distance of the query from the surface.  Missing for C35: queries on the axis. -/
theorem C35_tube_partial (c a : V3) (ha : a ≠ 0) (r : ℝ) (hr : 0 < r) (inside : Bool) (q : V3)
    (hq : ¬ ∃ s : ℝ, q = c + s • a) :
    let res := (Tube.make c a r inside).project q
    Nearest (OnTube c a r) q res.1 ∧
      ∃ f, IsFoot c a res.1 f ∧ Along res.2 (if inside then f - res.1 else res.1 - f) (q - res.1).norm := by
  intro res
  have hu := normSq_normalized a ha
  have hna := norm_pos a ha
  have hau : a = norm a • normalized a := (norm_smul_normalized a).symm
  set u := normalized a with hudef
  have hu1 : norm u = 1 := norm_normalized a ha
  have hsm : ∀ k : ℝ, k • u = (k / norm a) • a := by
    intro k
    have : u = (1 / norm a) • a := normalized_eq a ha
    rw [this]; ext <;> simp <;> field_simp
  set t := dot (q - c) u with ht
  set f := c + t • u with hf
  have hfs : ∃ s : ℝ, f = c + s • a := ⟨t / norm a, by rw [hf, hsm]⟩
  have hw : q - f ≠ 0 := by
    intro h
    obtain ⟨s, hs⟩ := hfs
    exact hq ⟨s, by rw [← hs]; exact (sub_eq_zero _ _).1 h⟩
  obtain ⟨w, hw1, hwv⟩ := polar (q - f) hw
  set R := norm (q - f) with hR
  have hRp : 0 < R := norm_pos _ hw
  have hwu : dot w u = 0 := by
    have h1 : dot (q - f) u = t * (1 - dot u u) := by
      rw [hf, ht]; simp only [dot, sub_x, sub_y, sub_z, add_x, add_y, add_z, smul_x, smul_y, smul_z]; ring
    rw [hu, hwv] at h1
    have h2 : dot (R • w) u = R * dot w u := by simp only [dot, smul_x, smul_y, smul_z]; ring
    rw [h2] at h1
    rcases mul_eq_zero.1 (show R * dot w u = 0 by rw [h1]; ring) with h | h
    · exact absurd h hRp.ne'
    · exact h
  have hqe : q = f + R • w := by
    have hx := congrArg V3.x hwv; have hy := congrArg V3.y hwv; have hz := congrArg V3.z hwv
    simp at hx hy hz
    ext <;> simp <;> linarith
  have hnorm : normalized (q - f) = w := by
    rw [hwv, normalized_smul_pos R hRp, normalized_eq w (by rintro rfl; rw [norm_zero] at hw1; norm_num at hw1), hw1]
    ext <;> simp
  have h1 : res.1 = f + r • w := by
    have : res.1 = f + r • normalized (q - f) := rfl
    rw [this, hnorm]
  have hqp : q - res.1 = (R - r) • w := by
    rw [h1]
    have hx := congrArg V3.x hqe; have hy := congrArg V3.y hqe; have hz := congrArg V3.z hqe
    simp at hx hy hz
    ext <;> simp <;> linarith
  have hdist : norm (q - res.1) = |R - r| := by rw [hqp, norm_smul, hw1, mul_one]
  have h2 : res.2 = (if inside then -|R - r| else |R - r|) • w := by
    have : res.2 = if R > r then (if inside then -(q - res.1) else q - res.1)
      else (if !inside then -(q - res.1) else q - res.1) := rfl
    rw [this, hqp]
    by_cases ho : R > r
    · rw [if_pos ho, abs_of_pos (by linarith)]
      cases inside <;> simp <;> ext <;> simp <;> ring
    · rw [if_neg ho, abs_of_nonpos (by linarith)]
      cases inside <;> simp <;> ext <;> simp <;> ring
  have hwa : dot w a = 0 := by
    rw [hau]
    have : dot w (norm a • u) = norm a * dot w u := by simp only [dot, smul_x, smul_y, smul_z]; ring
    rw [this, hwu, mul_zero]
  have hpf : res.1 - f = r • w := by rw [h1]; ext <;> simp
  have hfoot : IsFoot c a res.1 f := by
    refine ⟨hfs, ?_⟩
    rw [hpf]
    have : dot (r • w) a = r * dot w a := by simp only [dot, smul_x, smul_y, smul_z]; ring
    rw [this, hwa, mul_zero]
  refine ⟨⟨⟨f, hfoot, ?_⟩, ?_⟩, f, hfoot, ?_, ?_⟩
  · rw [hpf, norm_smul, hw1, abs_of_pos hr, mul_one]
  · rintro p' ⟨f', hf', hp'⟩
    rw [hdist]
    have e1 := tube_foot c a p' f' ha hf'
    rw [e1] at hp'
    have e2 : q - f = (q - c) - t • u := by rw [hf]; ext <;> simp <;> ring
    have e3 : (q - c) - t • u - ((p' - c) - (dot (p' - c) u) • u) = (q - p') - (dot (q - p') u) • u := by
      rw [ht]; ext <;> simp [dot] <;> ring
    have h3 := abs_norm_sub_le ((q - c) - t • u) ((p' - c) - (dot (p' - c) u) • u)
    rw [hp', ← e2, ← hR, e2, e3] at h3
    exact h3.trans (norm_perp_le _ _ hu)
  · rw [h2, hdist, norm_smul, hw1, mul_one]
    cases inside <;> simp
  · refine ⟨|R - r| / r, by positivity, ?_⟩
    rw [h2]
    have hx := congrArg V3.x hpf; have hy := congrArg V3.y hpf; have hz := congrArg V3.z hpf
    simp at hx hy hz
    cases inside
    · simp; ext <;> simp [hx, hy, hz] <;> field_simp
    · simp
      have hx' : f.x - res.1.x = -(r * w.x) := by linarith
      have hy' : f.y - res.1.y = -(r * w.y) := by linarith
      have hz' : f.z - res.1.z = -(r * w.z) := by linarith
      ext <;> simp [hx', hy', hz'] <;> field_simp

/-- For a query on the axis the returned point is the query itself, which is not on the surface, and `delta` is zero. -/
theorem C35_axis_false (c a : V3) (ha : a ≠ 0) (r : ℝ) (hr : 0 < r) (inside : Bool) (s : ℝ) :
    let q := c + s • a
    let res := (Tube.make c a r inside).project q
    res.1 = q ∧ res.2.norm = 0 ∧ ¬ OnTube c a r res.1 := by
  intro q res
  have hu := normSq_normalized a ha
  have hau : a = norm a • normalized a := (norm_smul_normalized a).symm
  set u := normalized a
  have ht : dot (q - c) u = s * norm a := by
    have : dot (q - c) u = s * dot a u := by
      simp only [q, dot, sub_x, sub_y, sub_z, add_x, add_y, add_z, smul_x, smul_y, smul_z]; ring
    have h2 : dot a u = norm a * dot u u := by
      conv_lhs => rw [hau]
      simp only [dot, smul_x, smul_y, smul_z]; ring
    rw [this, h2, hu]; ring
  have hf : c + (dot (q - c) u) • u = q := by
    rw [ht]
    have hx := congrArg V3.x hau; have hy := congrArg V3.y hau; have hz := congrArg V3.z hau
    simp at hx hy hz
    ext <;> simp [q]
    · rw [mul_assoc, ← hx]
    · rw [mul_assoc, ← hy]
    · rw [mul_assoc, ← hz]
  have h1 : res.1 = q := by
    have : res.1 = (c + (dot (q - c) u) • u) + r • normalized (q - (c + (dot (q - c) u) • u)) := rfl
    rw [this, hf, (sub_eq_zero q q).2 rfl, normalized_zero]; ext <;> simp
  refine ⟨h1, ?_, ?_⟩
  · have h2 : res.2 = if norm (q - (c + (dot (q - c) u) • u)) > r then (if inside then -(q - res.1) else q - res.1)
      else (if !inside then -(q - res.1) else q - res.1) := rfl
    rw [h2, h1, (sub_eq_zero q q).2 rfl]
    split <;> split <;> simp [norm_neg, norm_zero]
  · rw [h1]
    rintro ⟨f, hf', hn⟩
    have := tube_foot c a q f ha hf'
    rw [this] at hn
    have e : (q - c) - (dot (q - c) u) • u = 0 := by
      have hx := congrArg V3.x hf; have hy := congrArg V3.y hf; have hz := congrArg V3.z hf
      simp only [add_x, add_y, add_z, smul_x, smul_y, smul_z] at hx hy hz
      ext <;> simp only [sub_x, sub_y, sub_z, smul_x, smul_y, smul_z, zero_x, zero_y, zero_z] <;> linarith
    rw [e, norm_zero] at hn
    linarith

/-! ### C36 -/

theorem eps_pos : 0 < eps := by unfold eps; positivity

theorem eps_lt_one : eps < 1 := by unfold eps; norm_num

/-- A direction accepted by the last test. -/
theorem dir_accept (n d : V3) (h : |1 - dot n d.normalized| ≤ eps) : d ≠ 0 ∧ (1 - eps) * d.norm ≤ dot n d := by
  have h1 := (abs_le.1 h).2
  have hd : d ≠ 0 := by
    rintro rfl
    rw [normalized_zero] at h1
    have : dot n 0 = 0 := by simp [dot]
    rw [this] at h1
    have := eps_lt_one
    linarith
  refine ⟨hd, ?_⟩
  have hp := norm_pos d hd
  have e : dot n d = d.norm * dot n d.normalized := by
    conv_lhs => rw [← norm_smul_normalized d]
    simp only [dot, smul_x, smul_y, smul_z]; ring
  rw [e]
  nlinarith

theorem dir_self (n : V3) (hn : norm n = 1) (k : ℝ) (hk : 0 < k) : |1 - dot n (k • n).normalized| ≤ eps := by
  have hn0 : n ≠ 0 := by rintro rfl; rw [norm_zero] at hn; norm_num at hn
  rw [normalized_smul_pos k hk, normalized_eq n hn0, hn]
  have : dot n ((1 / 1 : ℝ) • n) = dot n n := by simp [dot]
  rw [this, normSq_one_of_norm n hn]
  simp [eps_pos.le]

theorem dir_zero (n : V3) : ¬ |1 - dot n (0 : V3).normalized| ≤ eps := by
  intro h; exact (dir_accept n 0 h).1 rfl

/-- The check of the sphere accepts the projection of every query that is neither the centre nor on the sphere. -/
theorem C36_sphere_accepts_partial (b : SphereShell) (hr : 0 < b.radius) (q : V3) (hq : q ≠ b.center)
    (hs : ¬ OnSphere b.center b.radius q) : ∃ p d, b.project q = some (p, d) ∧ b.check q p d = true := by
  obtain ⟨u, hu, hv⟩ := polar (q - b.center) (fun h => hq ((sub_eq_zero _ _).1 h))
  set R := norm (q - b.center) with hRdef
  have hR : 0 < R := norm_pos _ (fun h => hq ((sub_eq_zero _ _).1 h))
  refine ⟨_, _, sphere_project_eq b q u hu R hR hv, ?_⟩
  have hne : R - b.radius ≠ 0 := by
    intro h; apply hs; unfold OnSphere; linarith
  have hk : 0 < |R - b.radius| := abs_pos.2 hne
  have e1 : b.center + b.radius • u - b.center = b.radius • u := by ext <;> simp
  have hn1 : norm (b.radius • u) = b.radius := by rw [norm_smul, hu, abs_of_pos hr, mul_one]
  have e2 : q - b.center - b.radius • u = (R - b.radius) • u := by rw [hv]; ext <;> simp <;> ring
  unfold SphereShell.check
  simp only [e1, hn1, e2]
  rw [if_neg (by simp [eps_pos.le])]
  have hl : |norm ((R - b.radius) • u) - norm ((if b.inside = true then -|R - b.radius| else |R - b.radius|) • u)| = 0 := by
    rw [norm_smul, norm_smul, hu]
    cases b.inside <;> simp
  rw [hl, if_neg (by have := eps_pos; linarith), if_neg hr.ne']
  have e3 : (1 / b.radius) • (b.radius • u) = u := by ext <;> simp <;> field_simp
  rw [e3]
  rw [if_neg]
  rw [not_lt]
  cases b.inside
  · simpa using dir_self u hu _ hk
  · have := dir_self (-u) (by rw [norm_neg, hu]) _ hk
    have e4 : |R - b.radius| • (-u) = (-|R - b.radius|) • u := by ext <;> simp
    rw [e4] at this
    simpa using this

/-- Whatever the check of the sphere accepts is within its tolerance: the point is within `eps` of a point of the sphere,
`delta` is as long as the distance up to `eps` and points to the allowed side. -/
theorem C36_sphere_sound (b : SphereShell) (hr : eps < b.radius) (q p d : V3) (h : b.check q p d = true) :
    ∃ p0 n, OnSphere b.center b.radius p0 ∧ norm (p - p0) ≤ eps ∧
      Along n (if b.inside then b.center - p0 else p0 - b.center) 1 ∧
      |norm (q - p) - norm d| ≤ eps ∧ d ≠ 0 ∧ (1 - eps) * norm d ≤ dot n d := by
  have he := eps_pos
  unfold SphereShell.check at h
  simp only at h
  split at h
  · exact absurd h (by simp)
  rename_i h1
  split at h
  · exact absurd h (by simp)
  rename_i h2
  rw [not_lt] at h1 h2
  have hpn : 0 < norm (p - b.center) := by have := (abs_le.1 h1).1; linarith
  rw [if_neg hpn.ne'] at h
  have h3 : |1 - dot (if b.inside = true then -((1 / norm (p - b.center)) • (p - b.center))
      else (1 / norm (p - b.center)) • (p - b.center)) d.normalized| ≤ eps := by
    by_contra hc
    rw [not_le] at hc
    rw [if_pos hc] at h
    exact absurd h (by simp)
  have hp0 : p - b.center ≠ 0 := by intro h0; rw [h0, norm_zero] at hpn; exact lt_irrefl _ hpn
  obtain ⟨u, hu, hv⟩ := polar _ hp0
  have hr0 : 0 < b.radius := by linarith
  have e3 : (1 / norm (p - b.center)) • (p - b.center) = u := by
    have : (1 / norm (p - b.center)) • (norm (p - b.center) • u) = u := by ext <;> simp <;> field_simp
    rw [← hv] at this; exact this
  rw [e3] at h3
  refine ⟨b.center + b.radius • u, if b.inside then -u else u, ?_, ?_, ?_, ?_, ?_⟩
  · unfold OnSphere
    have e : b.center + b.radius • u - b.center = b.radius • u := by ext <;> simp
    rw [e, norm_smul, hu, abs_of_pos hr0]; ring
  · have e : p - (b.center + b.radius • u) = (norm (p - b.center) - b.radius) • u := by
      have hx := congrArg V3.x hv; have hy := congrArg V3.y hv; have hz := congrArg V3.z hv
      simp at hx hy hz
      ext <;> simp <;> linarith
    rw [e, norm_smul, hu, mul_one]; exact h1
  · constructor
    · cases b.inside <;> simp [norm_neg, hu]
    · refine ⟨1 / b.radius, by positivity, ?_⟩
      cases b.inside <;> ext <;> simp <;> field_simp
  · have e : q - b.center - (p - b.center) = q - p := by ext <;> simp
    rwa [e] at h2
  · exact dir_accept _ _ h3

/-- Wall: accepted for every query off the wall. -/
theorem C36_wall_accepts_partial (c n : V3) (hn : n ≠ 0) (q : V3) (hq : ¬ OnPlane c n q) :
    let b := Wall.make c n
    b.check q (b.project q).1 (b.project q).2 = true := by
  intro b
  have hu := normSq_normalized n hn
  have hu1 : norm (normalized n) = 1 := norm_normalized n hn
  have hb : b.norm = normalized n := rfl
  have hc : b.center = c := rfl
  set u := normalized n
  set t := dot (q - c) u with ht
  have h1 : (b.project q).1 = q - t • u := rfl
  have h2 : q - (b.project q).1 = t • u := by rw [h1]; ext <;> simp
  have h3 : (b.project q).2 = |t| • u := by
    have : (b.project q).2 = if t < 0 then -(q - (b.project q).1) else q - (b.project q).1 := rfl
    rw [this, h2]
    by_cases ht : t < 0
    · rw [if_pos ht, abs_of_neg ht]; ext <;> simp
    · rw [if_neg ht, abs_of_nonneg (not_lt.1 ht)]
  have ht0 : t ≠ 0 := by
    intro h0
    apply hq
    unfold OnPlane
    have : dot (q - c) n = norm n * t := by
      conv_lhs => rw [← norm_smul_normalized n]
      rw [ht]; simp only [u, dot, smul_x, smul_y, smul_z]; ring
    rw [this, h0, mul_zero]
  have he := eps_pos
  unfold Wall.check
  rw [hb, hc, h2, h3]
  have e1 : dot ((b.project q).1 - c) u = 0 := by
    rw [h1]
    have : dot (q - t • u - c) u = t - t * dot u u := by
      rw [ht]; simp only [dot, sub_x, sub_y, sub_z, smul_x, smul_y, smul_z]; ring
    rw [this, hu]; ring
  rw [e1, if_neg (by simp [he.le])]
  have e2 : |norm (t • u) - norm (|t| • u)| = 0 := by rw [norm_smul, norm_smul, abs_abs]; simp
  rw [e2, if_neg (by linarith), if_neg (by rw [not_lt]; exact dir_self u hu1 _ (abs_pos.2 ht0))]

/-- Wall: what is accepted is within the tolerance. -/
theorem C36_wall_sound (c n : V3) (hn : n ≠ 0) (q p d : V3) (h : (Wall.make c n).check q p d = true) :
    ∃ p0 m, OnPlane c n p0 ∧ norm (p - p0) ≤ eps ∧ Along m n 1 ∧
      |norm (q - p) - norm d| ≤ eps ∧ d ≠ 0 ∧ (1 - eps) * norm d ≤ dot m d := by
  have hu := normSq_normalized n hn
  have hu1 : norm (normalized n) = 1 := norm_normalized n hn
  unfold Wall.check at h
  split at h
  · exact absurd h (by simp)
  rename_i h1
  split at h
  · exact absurd h (by simp)
  rename_i h2
  split at h
  · exact absurd h (by simp)
  rename_i h3
  rw [not_lt] at h1 h2 h3
  have hnp := norm_pos n hn
  change |dot (p - c) (normalized n)| ≤ eps at h1
  change |1 - dot (normalized n) d.normalized| ≤ eps at h3
  set u := normalized n with hudef
  refine ⟨p - (dot (p - c) u) • u, u, ?_, ?_, ⟨hu1, 1 / norm n, by positivity, normalized_eq n hn⟩, h2, dir_accept u d h3⟩
  · unfold OnPlane
    have : dot (p - (dot (p - c) u) • u - c) n = norm n * (dot (p - c) u * (1 - dot u u)) := by
      conv_lhs => rw [← norm_smul_normalized n]
      rw [← hudef]
      simp only [dot, sub_x, sub_y, sub_z, smul_x, smul_y, smul_z]; ring
    rw [this, hu]; ring
  · have e : p - (p - (dot (p - c) u) • u) = (dot (p - c) u) • u := by ext <;> simp
    rw [e, norm_smul, hu1, mul_one]; exact h1

/-- Tube: accepted for every query neither on the axis nor on the surface. -/
theorem C36_tube_accepts_partial (c a : V3) (ha : a ≠ 0) (r : ℝ) (hr : 0 < r) (inside : Bool) (q : V3)
    (hq : ¬ ∃ s : ℝ, q = c + s • a) (hs : ¬ OnTube c a r q) :
    let b := Tube.make c a r inside
    b.check q (b.project q).1 (b.project q).2 = true := by
  intro b
  have he := eps_pos
  obtain ⟨⟨⟨f, hf, hfr⟩, -⟩, f', hf', hlen, k, hk, hd⟩ := C35_tube_partial c a ha r hr inside q hq
  change IsFoot c a (b.project q).1 f at hf
  change norm ((b.project q).1 - f) = r at hfr
  change IsFoot c a (b.project q).1 f' at hf'
  change norm (b.project q).2 = norm (q - (b.project q).1) at hlen
  change (b.project q).2 = k • (if inside then f' - (b.project q).1 else (b.project q).1 - f') at hd
  set p := (b.project q).1 with hp
  set d := (b.project q).2
  have hu := normSq_normalized a ha
  have e1 := tube_foot c a p f ha hf
  have e2 := tube_foot c a p f' ha hf'
  have hff : p - f' = p - f := by rw [e1, e2]
  have hax : p - (c + (dot (p - c) (normalized a)) • normalized a) = p - f := by
    rw [e1]; ext <;> simp <;> ring
  have hfe : f' = c + (dot (p - c) (normalized a)) • normalized a := by
    have h := hax.trans hff.symm
    have hx := congrArg V3.x h; have hy := congrArg V3.y h; have hz := congrArg V3.z h
    simp only [sub_x, sub_y, sub_z] at hx hy hz
    ext <;> linarith
  have hn : ∀ n, n = (if inside then f' - p else p - f') → norm n = r := by
    intro n hn
    rw [hn]
    cases inside
    · simp [hff, hfr]
    · simp; rw [norm_sub_comm, hff, hfr]
  have hkpos : 0 < k := by
    rcases hk.lt_or_eq with h | h
    · exact h
    · exfalso
      rw [← h] at hd
      have hz : ∀ v : V3, (0 : ℝ) • v = 0 := by intro v; ext <;> simp
      have hd0 : d = 0 := by rw [hd, hz]
      rw [hd0, norm_zero] at hlen
      have hqp : q = p := (sub_eq_zero _ _).1 ((norm_eq_zero _).1 hlen.symm)
      apply hs
      rw [hqp]
      exact ⟨f, hf, hfr⟩
  unfold Tube.check
  change (if |r - norm (p - (c + (dot (p - c) (normalized a)) • normalized a))| > eps then false
    else if |norm (q - p) - norm d| > eps then false
    else if |1 - dot d.normalized (if inside then (c + (dot (p - c) (normalized a)) • normalized a) - p
      else p - (c + (dot (p - c) (normalized a)) • normalized a)).normalized| > eps then false else true) = true
  rw [← hfe, hff, hfr, if_neg (by simp [he.le]), hlen, if_neg (by simp [he.le])]
  rw [← hff]
  rw [if_neg]
  rw [not_lt, hd]
  set n := (if inside then f' - p else p - f') with hndef
  have hnr := hn n rfl
  have hn0 : n ≠ 0 := by
    intro h0; rw [h0, norm_zero] at hnr; linarith
  rw [normalized_smul_pos k hkpos, normSq_normalized n hn0]
  simp [he.le]

/-- Tube: what is accepted is within the tolerance. -/
theorem C36_tube_sound (c a : V3) (ha : a ≠ 0) (r : ℝ) (hr : eps < r) (inside : Bool) (q p d : V3)
    (h : (Tube.make c a r inside).check q p d = true) :
    ∃ p0 f m, OnTube c a r p0 ∧ norm (p - p0) ≤ eps ∧ IsFoot c a p0 f ∧
      Along m (if inside then f - p0 else p0 - f) 1 ∧
      |norm (q - p) - norm d| ≤ eps ∧ d ≠ 0 ∧ (1 - eps) * norm d ≤ dot m d := by
  have he := eps_pos
  have hu := normSq_normalized a ha
  have hnp := norm_pos a ha
  have hr0 : 0 < r := by linarith
  set u := normalized a with hudef
  set f := c + (dot (p - c) u) • u with hf
  have hc : (Tube.make c a r inside).check q p d = (if |r - norm (p - f)| > eps then false
    else if |norm (q - p) - norm d| > eps then false
    else if |1 - dot d.normalized (if inside then f - p else p - f).normalized| > eps then false else true) := rfl
  rw [hc] at h
  have h1 : |r - norm (p - f)| ≤ eps := by
    by_contra hcc; rw [not_le] at hcc; rw [if_pos hcc] at h; exact absurd h (by simp)
  rw [if_neg (not_lt.2 h1)] at h
  have h2 : |norm (q - p) - norm d| ≤ eps := by
    by_contra hcc; rw [not_le] at hcc; rw [if_pos hcc] at h; exact absurd h (by simp)
  rw [if_neg (not_lt.2 h2)] at h
  have h3 : |1 - dot d.normalized (if inside then f - p else p - f).normalized| ≤ eps := by
    by_contra hcc; rw [not_le] at hcc; rw [if_pos hcc] at h; exact absurd h (by simp)
  have hR : 0 < norm (p - f) := by have := (abs_le.1 h1).2; linarith
  have hpf0 : p - f ≠ 0 := by intro h0; rw [h0, norm_zero] at hR; exact lt_irrefl _ hR
  obtain ⟨w, hw, hwv⟩ := polar _ hpf0
  have hw0 : w ≠ 0 := by rintro rfl; rw [norm_zero] at hw; norm_num at hw
  have hwa : dot w a = 0 := by
    have e1 : dot (p - f) a = norm a * (dot (p - c) u * (1 - dot u u)) := by
      conv_lhs => rw [← norm_smul_normalized a]
      rw [← hudef, hf]
      simp only [dot, sub_x, sub_y, sub_z, add_x, add_y, add_z, smul_x, smul_y, smul_z]; ring
    rw [hu, hwv] at e1
    have e2 : dot (norm (p - f) • w) a = norm (p - f) * dot w a := by simp only [dot, smul_x, smul_y, smul_z]; ring
    rw [e2] at e1
    rcases mul_eq_zero.1 (show norm (p - f) * dot w a = 0 by rw [e1]; ring) with h | h
    · exact absurd h hR.ne'
    · exact h
  have hp0f : f + r • w - f = r • w := by ext <;> simp
  have hfoot : IsFoot c a (f + r • w) f := by
    refine ⟨⟨dot (p - c) u / norm a, ?_⟩, ?_⟩
    · rw [hf, show u = (1 / norm a) • a from normalized_eq a ha]; ext <;> simp <;> field_simp
    · rw [hp0f]
      have : dot (r • w) a = r * dot w a := by simp only [dot, smul_x, smul_y, smul_z]; ring
      rw [this, hwa, mul_zero]
  have hnn : (if inside then f - p else p - f).normalized = if inside then -w else w := by
    cases inside
    · simp only [Bool.false_eq_true, if_false]
      rw [hwv, normalized_smul_pos _ hR, normalized_eq w hw0, hw]; ext <;> simp
    · simp only [if_true]
      have : f - p = norm (p - f) • (-w) := by
        have hx := congrArg V3.x hwv; have hy := congrArg V3.y hwv; have hz := congrArg V3.z hwv
        simp only [sub_x, sub_y, sub_z, smul_x, smul_y, smul_z] at hx hy hz
        ext <;> simp only [sub_x, sub_y, sub_z, smul_x, smul_y, smul_z, neg_x, neg_y, neg_z] <;> linarith
      have hw0' : -w ≠ 0 := by
        intro h0; apply hw0
        have := congrArg norm h0
        rw [norm_neg, norm_zero] at this; exact (norm_eq_zero w).1 this
      rw [this, normalized_smul_pos _ hR, normalized_eq _ hw0', norm_neg, hw]; ext <;> simp
  rw [hnn, dot_comm] at h3
  refine ⟨f + r • w, f, if inside then -w else w, ⟨f, hfoot, ?_⟩, ?_, hfoot, ⟨?_, 1 / r, by positivity, ?_⟩, h2,
    dir_accept _ _ h3⟩
  · rw [hp0f, norm_smul, hw, abs_of_pos hr0, mul_one]
  · have : p - (f + r • w) = (norm (p - f) - r) • w := by
      have hx := congrArg V3.x hwv; have hy := congrArg V3.y hwv; have hz := congrArg V3.z hwv
      simp only [sub_x, sub_y, sub_z, smul_x, smul_y, smul_z] at hx hy hz
      ext <;> simp only [sub_x, sub_y, sub_z, add_x, add_y, add_z, smul_x, smul_y, smul_z] <;> linarith
    rw [this, norm_smul, hw, mul_one, abs_sub_comm]; exact h1
  · cases inside <;> simp [norm_neg, hw]
  · cases inside <;> ext <;> simp <;> field_simp

/-- The self-check rejects the projection of a query that lies on the boundary. -/
theorem C36_on_boundary_false :
    (∃ (b : SphereShell) (q p d : V3), 0 < b.radius ∧ b.project q = some (p, d) ∧ b.check q p d = false) ∧
    (∃ (c n q : V3), n ≠ 0 ∧ (Wall.make c n).check q ((Wall.make c n).project q).1 ((Wall.make c n).project q).2
      = false) ∧
    (∃ (c a : V3) (r : ℝ) (q : V3), a ≠ 0 ∧ 0 < r ∧ (¬ ∃ s : ℝ, q = c + s • a) ∧
      (Tube.make c a r true).check q ((Tube.make c a r true).project q).1 ((Tube.make c a r true).project q).2
        = false) := by
  have hux : norm ⟨1, 0, 0⟩ = 1 := by simp [norm, normSq, dot]
  have huz : norm ⟨0, 0, 1⟩ = 1 := by simp [norm, normSq, dot]
  have hux0 : (⟨1, 0, 0⟩ : V3) ≠ 0 := by intro h; have := congrArg V3.x h; simp at this
  have huz0 : (⟨0, 0, 1⟩ : V3) ≠ 0 := by intro h; have := congrArg V3.z h; simp at this
  refine ⟨⟨⟨0, 1, true⟩, ⟨1, 0, 0⟩, ⟨1, 0, 0⟩, 0, by norm_num, ?_, ?_⟩, ⟨0, ⟨1, 0, 0⟩, 0, hux0, ?_⟩,
    ⟨0, ⟨0, 0, 1⟩, 1, ⟨1, 0, 0⟩, huz0, by norm_num, ?_, ?_⟩⟩
  · rw [sphere_project_eq ⟨0, 1, true⟩ ⟨1, 0, 0⟩ ⟨1, 0, 0⟩ hux 1 (by norm_num) (by ext <;> simp)]
    congr 2 <;> ext <;> simp
  · by_contra hc
    rw [Bool.not_eq_false] at hc
    obtain ⟨p0, n, -, -, -, -, hd, -⟩ := C36_sphere_sound ⟨0, 1, true⟩ eps_lt_one _ _ _ hc
    exact hd rfl
  · by_contra hc
    rw [Bool.not_eq_false] at hc
    obtain ⟨p0, n, -, -, -, -, hd, -⟩ := C36_wall_sound _ _ hux0 _ _ _ hc
    apply hd
    have : dot ((0 : V3) - 0) (normalized ⟨1, 0, 0⟩) = 0 := by simp [dot]
    have e : ((Wall.make 0 ⟨1, 0, 0⟩).project 0).2
        = if dot ((0 : V3) - 0) (normalized ⟨1, 0, 0⟩) < 0
          then -((0 : V3) - (0 - dot ((0 : V3) - 0) (normalized ⟨1, 0, 0⟩) • normalized ⟨1, 0, 0⟩))
          else (0 : V3) - (0 - dot ((0 : V3) - 0) (normalized ⟨1, 0, 0⟩) • normalized ⟨1, 0, 0⟩) := rfl
    rw [e, this, if_neg (by norm_num)]
    ext <;> simp
  · rintro ⟨s, hs⟩
    have := congrArg V3.x hs; simp at this
  · by_contra hc
    rw [Bool.not_eq_false] at hc
    obtain ⟨p0, f, m, -, -, -, -, -, hd, -⟩ := C36_tube_sound 0 ⟨0, 0, 1⟩ huz0 1 eps_lt_one true _ _ _ hc
    apply hd
    obtain ⟨-, f', -, hlen, -⟩ := C35_tube_partial 0 ⟨0, 0, 1⟩ huz0 1 (by norm_num) true ⟨1, 0, 0⟩ (by
      rintro ⟨s, hs⟩; have := congrArg V3.x hs; simp at this)
    rw [← norm_eq_zero, hlen]
    have hn : normalized (⟨0, 0, 1⟩ : V3) = ⟨0, 0, 1⟩ := by
      rw [normalized_eq _ huz0, huz]; ext <;> simp
    have hn2 : normalized (⟨1, 0, 0⟩ : V3) = ⟨1, 0, 0⟩ := by
      rw [normalized_eq _ hux0, hux]; ext <;> simp
    have e : ((Tube.make 0 ⟨0, 0, 1⟩ 1 true).project ⟨1, 0, 0⟩).1 = ⟨1, 0, 0⟩ := by
      simp only [Tube.project, Tube.make, hn]
      have : dot ((⟨1, 0, 0⟩ : V3) - 0) ⟨0, 0, 1⟩ = 0 := by simp [dot]
      rw [this]
      have e0 : (⟨1, 0, 0⟩ : V3) - (0 + (0 : ℝ) • ⟨0, 0, 1⟩) = ⟨1, 0, 0⟩ := by ext <;> simp
      rw [e0, hn2]; ext <;> simp
    rw [e, (sub_eq_zero _ _).2 rfl, norm_zero]

/-! ### examples -/

/-- A query outside of a sphere that keeps particles inside. -/
example : (0 : ℝ) < (⟨⟨1, 0, 0⟩, 2, true⟩ : SphereShell).radius ∧ (⟨5, 0, 0⟩ : V3) ≠ (⟨1, 0, 0⟩ : V3) ∧
    ¬ OnSphere ⟨1, 0, 0⟩ 2 ⟨5, 0, 0⟩ ∧ eps < 2 := by
  refine ⟨by norm_num, by intro h; have := congrArg V3.x h; norm_num at this, ?_, by unfold eps; norm_num⟩
  unfold OnSphere
  have : (⟨5, 0, 0⟩ : V3) - ⟨1, 0, 0⟩ = (4 : ℝ) • ⟨1, 0, 0⟩ := by ext <;> norm_num
  rw [this, norm_smul]
  norm_num [norm, normSq, dot]

/-- A wall with a normal that is not a unit vector and a query behind it. -/
example : (⟨0, 0, 2⟩ : V3) ≠ 0 ∧ ¬ OnPlane ⟨0, 0, 1⟩ ⟨0, 0, 2⟩ ⟨3, 4, -5⟩ := by
  refine ⟨by intro h; have := congrArg V3.z h; simp at this, ?_⟩
  unfold OnPlane; norm_num [dot]

/-- A tube with an axis that is not a unit vector and a query inside. -/
example : (⟨0, 0, 3⟩ : V3) ≠ 0 ∧ (¬ ∃ s : ℝ, (⟨1, 0, 7⟩ : V3) = ⟨0, 0, 1⟩ + s • ⟨0, 0, 3⟩) := by
  refine ⟨by intro h; have := congrArg V3.z h; simp at this, ?_⟩
  rintro ⟨s, hs⟩; have := congrArg V3.x hs; simp at this

end Verif
