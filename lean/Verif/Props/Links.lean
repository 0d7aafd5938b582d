import Verif.Model.Links
import Verif.Props.GeoUtil
import Verif.Props.Near
/-! Properties C58 (the data directory) and C60 (links as constraints). -/
namespace Verif
open Links V3 Collector

/-! ### C58 -/

/-- In a history of rounds, `d` is what was put under `g` in the last round in which anything was. -/
def IsLatest {D : Type} (hist : List (List (ℤ × D))) (g : ℤ) (d : D) : Prop :=
  ∃ pre round post, hist = pre ++ round :: post ∧ (g, d) ∈ round ∧ ∀ r ∈ post, ∀ d', (g, d') ∉ r

theorem build_none {D : Type} (dir : Dir D) (round : List (ℤ × D)) (g : ℤ) (h : ∀ d, (g, d) ∉ round) : dir.buildIndex round g = dir g := by
  induction round generalizing dir with
  | nil => rfl
  | cons p round ih =>
    have : dir.buildIndex (p :: round) = (dir.put p).buildIndex round := rfl
    rw [this, ih _ (fun d hd => h d (List.mem_cons_of_mem _ hd))]
    unfold Dir.put
    rw [if_neg]
    rintro rfl
    exact h p.2 (by simp)

theorem build_some {D : Type} (dir : Dir D) (round : List (ℤ × D)) (g : ℤ) (d0 : D) (h : (g, d0) ∈ round) :
    ∃ d, (g, d) ∈ round ∧ dir.buildIndex round g = some d := by
  induction round generalizing dir d0 with
  | nil => simp at h
  | cons p round ih =>
    have e : dir.buildIndex (p :: round) = (dir.put p).buildIndex round := rfl
    rw [e]
    by_cases hr : ∃ d, (g, d) ∈ round
    · obtain ⟨d, hd⟩ := hr
      obtain ⟨d', h1, h2⟩ := ih (dir.put p) d hd
      exact ⟨d', List.mem_cons_of_mem _ h1, h2⟩
    · push Not at hr
      rcases List.mem_cons.1 h with rfl | h
      · exact ⟨d0, by simp, by rw [build_none _ _ _ hr]; simp [Dir.put]⟩
      · exact absurd h (hr d0)

/-- The directory after a history: what it holds is one of the data put in last, and nothing only if nothing ever was. -/
theorem dirHistory_spec {D : Type} (hist : List (List (ℤ × D))) (g : ℤ) :
    (∀ d, hist.foldl Dir.buildIndex Dir.empty g = some d → IsLatest hist g d) ∧
    (hist.foldl Dir.buildIndex Dir.empty g = none ↔ ∀ r ∈ hist, ∀ d, (g, d) ∉ r) := by
  induction hist using List.reverseRecOn with
  | nil => simp [Dir.empty]
  | append_singleton hist round ih =>
    rw [List.foldl_append]
    simp only [List.foldl_cons, List.foldl_nil]
    by_cases hr : ∃ d, (g, d) ∈ round
    · obtain ⟨d0, h0⟩ := hr
      obtain ⟨d, h1, h2⟩ := build_some (hist.foldl Dir.buildIndex Dir.empty) round g d0 h0
      rw [h2]
      refine ⟨?_, ?_⟩
      · intro d' hd'
        simp only [Option.some.injEq] at hd'
        subst hd'
        exact ⟨hist, round, [], rfl, h1, by simp⟩
      · constructor
        · intro h; cases h
        · intro h; exact absurd h1 (h round (by simp) d)
    · push Not at hr
      rw [build_none _ _ _ hr]
      refine ⟨?_, ?_⟩
      · intro d hd
        obtain ⟨pre, r, post, he, hm, hp⟩ := ih.1 d hd
        refine ⟨pre, r, post ++ [round], by rw [he]; simp, hm, ?_⟩
        intro r' hr' d'
        rcases List.mem_append.1 hr' with h | h
        · exact hp r' h d'
        · rw [List.mem_singleton.1 h]; exact hr d'
      · rw [ih.2]
        constructor
        · intro h r hr' d
          rcases List.mem_append.1 hr' with h' | h'
          · exact h r h' d
          · rw [List.mem_singleton.1 h']; exact hr d
        · intro h r hr'
          exact h r (by simp [hr'])

/-- With every id at most once in a round there is only one latest datum. -/
theorem latest_unique {D : Type} (hist : List (List (ℤ × D))) (hu : ∀ r ∈ hist, (r.map Prod.fst).Nodup) (g : ℤ) (d d' : D)
    (h : IsLatest hist g d) (h' : IsLatest hist g d') : d = d' := by
  induction hist using List.reverseRecOn with
  | nil => obtain ⟨pre, r, post, he, -⟩ := h; simp at he
  | append_singleton hist round ih =>
    have key : ∀ d, IsLatest (hist ++ [round]) g d → (g, d) ∈ round ∨ (∀ d', (g, d') ∉ round) ∧ IsLatest hist g d := by
      rintro d ⟨pre, r, post, he, hm, hp⟩
      rcases List.eq_nil_or_concat' post with rfl | ⟨post, x, rfl⟩
      · have := List.append_inj_right' he (by simp)
        simp only [List.cons.injEq, and_true] at this
        subst this
        exact Or.inl hm
      · rw [show pre ++ r :: (post ++ [x]) = (pre ++ r :: post) ++ [x] by simp] at he
        have h2 := List.append_inj_right' he rfl
        have h1 := List.append_inj_left' he rfl
        simp only [List.cons.injEq, and_true] at h2
        subst h2
        exact Or.inr ⟨hp round (by simp), pre, r, post, h1, hm, fun r' hr' => hp r' (by simp [hr'])⟩
    rcases key d h with h1 | ⟨h1, h2⟩ <;> rcases key d' h' with h3 | ⟨h3, h4⟩
    · have := hu round (by simp)
      have := List.inj_on_of_nodup_map this h1 h3 rfl
      simpa using this
    · exact absurd h1 (h3 d)
    · exact absurd h3 (h1 d')
    · exact ih (fun r hr => hu r (by simp [hr])) h2 h4

/-- **C58** (partial).  After any history of `buildIndex` — each round with the pairs of all ranks in any order — `find` puts in place `i` of its result, for
each requested id that was ever published, a datum published under it in the last round in which it was published at all, and this is the
only one if no round has an id twice; the status is OK exactly if all requested ids were ever published; data beyond the
requests are not touched.

Missing: ids that were published once but no longer are reported as found (`C58_stale_false`). -/
theorem C58_latest_partial {D : Type} (hist : List (List (ℤ × D))) (blank : D) (junk : ℕ → D) (req : List ℤ) (buf : List D) :
    let res := (hist.foldl Dir.buildIndex Dir.empty).find blank junk req buf
    (res.2 = true ↔ ∀ g ∈ req, ∃ r ∈ hist, ∃ d, (g, d) ∈ r) ∧ res.1.length = max req.length buf.length ∧
    (∀ i : ℕ, req.length ≤ i → res.1[i]? = buf[i]?) ∧
    ∀ (i : ℕ) (g : ℤ), req[i]? = some g → (∃ r ∈ hist, ∃ d, (g, d) ∈ r) → ∃ d, res.1[i]? = some d ∧ IsLatest hist g d ∧
      ((∀ r ∈ hist, (r.map Prod.fst).Nodup) → ∀ d', IsLatest hist g d' → d' = d) := by
  simp only
  set dir := hist.foldl Dir.buildIndex Dir.empty with hdir
  have hs : ∀ g, (dir g).isSome = true ↔ ∃ r ∈ hist, ∃ d, (g, d) ∈ r := by
    intro g
    have := (dirHistory_spec hist g).2
    rw [← hdir] at this
    rw [Option.isSome_iff_ne_none, ne_eq, this]
    push Not
    rfl
  have hbuf : (if buf.length < req.length then buf ++ List.replicate (req.length - buf.length) blank else buf).drop req.length = buf.drop req.length := by
    split_ifs with h
    · rw [List.drop_eq_nil_of_le (by simp; omega), List.drop_eq_nil_of_le (by omega)]
    · rfl
  unfold Dir.find
  simp only [hbuf]
  refine ⟨?_, ?_, ?_, ?_⟩
  · rw [List.all_eq_true]
    exact forall₂_congr fun g _ => hs g
  · simp
    omega
  · intro i hi
    rw [List.getElem?_append_right (by simpa using hi)]
    simp only [List.length_mapIdx, List.getElem?_drop]
    congr 1
    omega
  · intro i g hg hex
    obtain ⟨d, hd⟩ := Option.isSome_iff_exists.1 ((hs g).2 hex)
    have hlt : i < req.length := (List.getElem?_eq_some_iff.1 hg).1
    refine ⟨d, ?_, (dirHistory_spec hist g).1 d (by rw [← hdir]; exact hd), ?_⟩
    · rw [List.getElem?_append_left (by simpa using hlt), List.getElem?_mapIdx, hg]
      simp [hd]
    · intro hu d' hd'
      exact latest_unique hist hu g d' d hd' ((dirHistory_spec hist g).1 d (by rw [← hdir]; exact hd))

/-- **C58** is false for ids no longer published: the directory is never emptied, so `find` returns the old datum, with status OK. -/
theorem C58_stale_false {D : Type} (d blank : D) (junk : ℕ → D) :
    ([[(1, d)], []].foldl Dir.buildIndex Dir.empty).find blank junk [1] [] = ([d], true) := by
  simp [Dir.buildIndex, Dir.find, Dir.put]

/-- Two rounds on the ids 1 and 2; id 1 moves. -/
example : ([[(1, 10), (2, 20)], [(2, 21), (1, 11)]].foldl Dir.buildIndex Dir.empty).find 0 (fun _ => 0) [2, 1, 2] [] = ([21, 11, 21], true) := by
  simp [Dir.buildIndex, Dir.find, Dir.put, List.mapIdx_cons]

/-! ### C60 -/

theorem near_unique {lb ub x trg a b a' b' : ℝ} (h : GeoUtil.FindPBCImageNear id lb ub x trg a b) (h' : GeoUtil.FindPBCImageNear id lb ub x trg a' b') : a = a' := by
  obtain ⟨h1, d, hd, ha⟩ := h
  obtain ⟨h1', d', hd', ha'⟩ := h'
  have e := GeoUtil.find_unique h1 h1'
  subst e
  have e := GeoUtil.find_unique hd hd'
  subst e
  rw [ha, ha']

/-- The component functions determine a vector. -/
theorem comp_ext {a b : V3} (h : ∀ k, Near.comp a k = Near.comp b k) : a = b := by
  have h0 := h 0
  have h1 := h 1
  have h2 := h 2
  simp [Near.comp] at h0 h1 h2
  exact V3.ext h0 h1 h2

/-- `c` is the image of `p` nearest to `q`: the same coordinate on axes that are not periodic, the nearest image on the others. -/
def NearestImage (cfg : Cfg) (q p c : V3) : Prop :=
  ∀ k, (cfg.pbc k = false → Near.comp c k = Near.comp p k) ∧
    (cfg.pbc k = true → GeoUtil.Spec.IsImage (cfg.high k - cfg.low k) (Near.comp p k) (Near.comp c k) ∧
      ∀ y, GeoUtil.Spec.IsImage (cfg.high k - cfg.low k) (Near.comp p k) y → |Near.comp c k - Near.comp q k| ≤ |y - Near.comp q k|)

/-- The loops over the axes end with the nearest image. -/
theorem image_spec (cfg : Cfg) (hbox : ∀ k, cfg.pbc k = true → cfg.low k < cfg.high k) (q p : V3)
    (hq : ∀ k, cfg.pbc k = true → cfg.low k ≤ Near.comp q k ∧ Near.comp q k < cfg.high k) :
    ∃ c, Image cfg q p c ∧ NearestImage cfg q p c ∧ ∀ c', Image cfg q p c' → c' = c := by
  have key : ∀ k, ∃ x, ((if cfg.pbc k then
      ∃ trg, GeoUtil.FindPBCImageNear id (cfg.low k) (cfg.high k) (Near.comp p k) (Near.comp q k) x trg ∧ ¬ |trg - x| > 0.5 * (cfg.high k - cfg.low k)
      else x = Near.comp p k) ∧ (cfg.pbc k = false → x = Near.comp p k) ∧
    (cfg.pbc k = true → GeoUtil.Spec.IsImage (cfg.high k - cfg.low k) (Near.comp p k) x ∧
      ∀ y, GeoUtil.Spec.IsImage (cfg.high k - cfg.low k) (Near.comp p k) y → |x - Near.comp q k| ≤ |y - Near.comp q k|)) := by
    intro k
    cases hk : cfg.pbc k with
    | false => exact ⟨Near.comp p k, by simp, fun _ => rfl, by simp⟩
    | true =>
      obtain ⟨⟨x, t⟩, ⟨h1, -, -, -, h5, h6, h7⟩, -⟩ := C06_nearest_image (cfg.low k) (cfg.high k) (Near.comp p k) (Near.comp q k) (hbox k hk)
      obtain ⟨h8, h9⟩ := hq k hk
      have ht : t = Near.comp q k := (C05_wrap_fixed id _ _ _ h8 h9 t).1 h1.1
      simp only at h1 h5 h6 h7
      subst ht
      refine ⟨x, ?_, by simp, fun _ => ⟨h5, h7⟩⟩
      rw [if_pos rfl]
      refine ⟨_, h1, ?_⟩
      rw [abs_sub_comm, not_lt]
      refine h6.trans (le_of_eq ?_)
      norm_num
      ring
  choose x hx using key
  have hc : ∀ k, Near.comp ⟨x 0, x 1, x 2⟩ k = x k := by
    intro k
    fin_cases k <;> simp [Near.comp]
  refine ⟨⟨x 0, x 1, x 2⟩, ?_, ?_, ?_⟩
  · intro k
    rw [hc]
    exact (hx k).1
  · intro k
    rw [hc]
    exact (hx k).2
  · intro c' hc'
    apply comp_ext
    intro k
    rw [hc]
    have h1 := hc' k
    have h2 := (hx k).1
    cases hk : cfg.pbc k with
    | false =>
      rw [hk] at h1 h2
      simp at h1 h2
      rw [h1, h2]
    | true =>
      rw [hk] at h1 h2
      rw [if_pos rfl] at h1 h2
      obtain ⟨t1, h1, -⟩ := h1
      obtain ⟨t2, h2, -⟩ := h2
      exact near_unique h1 h2

/-- What the constraint of a link from body `I` to a body with the data `J` has to be: between the plus end `P` of `I` and the minus end `Q` of the image of `J` whose
centre is nearest to that of `I`. -/
def IsLink (cfg : Cfg) (I : Sylinder) (J : Near.EP) (b : Block) : Prop :=
  ∃ c P Q, NearestImage cfg I.pos J.pos c ∧ P = I.pos + (I.length / 2) • I.direction ∧ Q = c - (J.length / 2) • J.direction ∧
    b.delta0 = norm (Q - P) - I.radius - J.radius - cfg.linkGap ∧ b.bilateral = true ∧ b.oneSide = false ∧ b.kappa = cfg.linkKappa ∧
    b.gidI = I.gid ∧ b.gidJ = J.gid ∧ b.globalIndexI = I.globalIndex ∧ b.globalIndexJ = J.globalIndex ∧
    b.labI = P ∧ b.labJ = Q ∧ I.pos + b.posI = P ∧ c + b.posJ = Q ∧
    b.normJ = -b.normI ∧ P - Q = norm (P - Q) • b.normI ∧ ((P ≠ Q → norm b.normI = 1 ∧ norm b.normJ = 1) ∧ (P = Q → b.normI = 0)) ∧
    b.gamma = if b.delta0 < 0 then -b.delta0 else 0

/-- A body with sizes that make sense. -/
def Sized (radius length : ℝ) : Prop := 0 < radius ∧ 0 ≤ length

theorem linkBlock_spec (cfg : Cfg) (hbox : ∀ k, cfg.pbc k = true → cfg.low k < cfg.high k) (I : Sylinder) (J : Near.EP)
    (hI : ∀ k, cfg.pbc k = true → cfg.low k ≤ Near.comp I.pos k ∧ Near.comp I.pos k < cfg.high k) (sI : Sized I.radius I.length) (sJ : Sized J.radius J.length) :
    ∃ b, LinkBlock cfg I J b ∧ IsLink cfg I J b ∧ ∀ b', LinkBlock cfg I J b' → b' = b := by
  obtain ⟨c, hc, hn, hu⟩ := image_spec cfg hbox I.pos J.pos hI
  have hb : ∃ b, Links.block cfg I J c = some b := by
    unfold Links.block
    simp only [Option.map_eq_some_iff]
    obtain ⟨αI, βI, αJ, βJ, h1, h2, h3, h4, hS⟩ := Near.collideStress_some I.direction J.direction I.pos c I.length J.length I.radius J.radius
      (I.pos + (0.5 * I.length) • I.direction) (c - (0.5 * J.length) • J.direction) sI.1 sJ.1 sI.2 sJ.2
    exact ⟨_, _, hS, rfl⟩
  obtain ⟨b, hb⟩ := hb
  refine ⟨b, ⟨c, hc, hb⟩, ?_, ?_⟩
  · unfold Links.block at hb
    simp only [Option.map_eq_some_iff] at hb
    obtain ⟨S, -, rfl⟩ := hb
    refine ⟨c, I.pos + (I.length / 2) • I.direction, c - (J.length / 2) • J.direction, hn, rfl, rfl, ?_⟩
    rw [show (0.5 : ℝ) * I.length = I.length / 2 by norm_num; ring, show (0.5 : ℝ) * J.length = J.length / 2 by norm_num; ring]
    refine ⟨rfl, rfl, rfl, rfl, rfl, rfl, rfl, rfl, rfl, rfl, ?_, ?_, rfl, ?_, ?_, rfl⟩
    · simp only [Block.setStress]
      ext <;> simp
    · simp only [Block.setStress]
      ext <;> simp <;> ring
    · exact (norm_smul_normalized _).symm
    · refine ⟨fun hne => ?_, fun he => ?_⟩
      rotate_left
      · show V3.normalized _ = 0
        rw [he, show c - (J.length / 2) • J.direction - (c - (J.length / 2) • J.direction) = 0 by ext <;> simp, V3.normalized, if_neg (by simp [V3.normSq, V3.dot])]
      have h1 := norm_normalized (I.pos + (I.length / 2) • I.direction - (c - (J.length / 2) • J.direction)) (by
        intro h
        apply hne
        have hx := congrArg V3.x h
        have hy := congrArg V3.y h
        have hz := congrArg V3.z h
        rw [sub_x, zero_x] at hx
        rw [sub_y, zero_y] at hy
        rw [sub_z, zero_z] at hz
        ext <;> linarith)
      refine ⟨h1, ?_⟩
      simp only [Block.setStress]
      rw [V3.norm_neg]
      exact h1
  · rintro b' ⟨c', hc', hb'⟩
    rw [hu c' hc', hb] at hb'
    simpa using hb'.symm

/-! #### the whole loop -/

theorem flatten_queues {α β : Type} (pool : List (List β)) (f : α → ℕ) (g : α → List β) (L : List α) :
    (pool.mapIdx fun t q => q ++ (L.filter fun a => f a = t).flatMap g).flatten.Perm
      (pool.flatten ++ (L.filter fun a => f a < pool.length).flatMap g) := by
  induction pool using List.reverseRecOn with
  | nil => simp
  | append_singleton pool q ih =>
    rw [List.mapIdx_concat, List.flatten_concat, List.flatten_concat]
    refine (ih.append_right _).trans ?_
    have h : (L.filter fun a => f a < (pool ++ [q]).length).Perm ((L.filter fun a => f a < pool.length) ++ L.filter fun a => f a = pool.length) := by
      have h1 := List.filter_append_perm (fun a => decide (f a < pool.length)) (L.filter fun a => f a < (pool ++ [q]).length)
      refine h1.symm.trans (List.Perm.of_eq ?_)
      rw [List.filter_filter, List.filter_filter]
      congr 1
      · apply List.filter_congr
        intro a _
        simp
        omega
      · apply List.filter_congr
        intro a _
        rw [Bool.eq_iff_iff]
        simp
        omega
    refine List.Perm.trans ?_ ((h.flatMap_right g).append_left _).symm
    rw [List.flatMap_append]
    simp only [List.append_assoc]
    refine List.Perm.append_left _ ?_
    rw [← List.append_assoc, ← List.append_assoc]
    exact List.Perm.append_right _ List.perm_append_comm

theorem disp_get (linkMap : List (ℤ × ℤ)) (bodies : List Sylinder) (d i : ℕ) (hi : i ≤ bodies.length) :
    (gidDisp linkMap d bodies)[i]? = some (d + (gidToFind linkMap (bodies.take i)).length) := by
  induction bodies generalizing d i with
  | nil =>
    have : i = 0 := by simpa using hi
    subst this
    simp [gidDisp, gidToFind]
  | cons s rest ih =>
    cases i with
    | zero => simp [gidDisp, gidToFind]
    | succ i =>
      simp only [gidDisp, List.getElem?_cons_succ]
      rw [ih _ i (by simpa using hi)]
      simp [gidToFind, add_assoc]

theorem forall₂_det {α β : Type} {R : α → β → Prop} (f : α → β) {l : List α} {bs : List β} (h : List.Forall₂ R l bs) (hu : ∀ a ∈ l, ∀ b, R a b → b = f a) :
    bs = l.map f := by
  induction h with
  | nil => rfl
  | cons h1 _ ih =>
    rw [List.map_cons, hu _ (by simp) _ h1, ih fun a ha => hu a (by simp [ha])]

theorem zipIdx_flatMap {β : Type} (l : List (List β)) (k : ℕ) : (l.zipIdx k).flatMap Prod.fst = l.flatten := by
  induction l generalizing k with
  | nil => rfl
  | cons a l ih => simp [List.zipIdx_cons, ih]

/-- The links of the bodies, with their bodies, in order. -/
def linkPairs (linkMap : List (ℤ × ℤ)) (bodies : List Sylinder) : List (Sylinder × ℤ) := bodies.flatMap fun s => (nexts linkMap s.gid).map fun g => (s, g)

theorem found_get (dir : Dir Near.EP) (blank : Near.EP) (junk : ℕ → Near.EP) (linkMap : List (ℤ × ℤ)) (bodies : List Sylinder) (buf : List Near.EP) (i n : ℕ) (s : Sylinder)
    (hs : bodies[i]? = some s) (g : ℤ) (hg : (nexts linkMap s.gid)[n]? = some g) (e : Near.EP) (he : dir g = some e) :
    (dir.find blank junk (gidToFind linkMap bodies) buf).1[(gidToFind linkMap (bodies.take i)).length + n]? = some e := by
  have hsplit : gidToFind linkMap bodies = gidToFind linkMap (bodies.take i) ++ (nexts linkMap s.gid ++ gidToFind linkMap (bodies.drop (i + 1))) := by
    have hi := (List.getElem?_eq_some_iff.1 hs).1
    conv_lhs => rw [← List.take_append_drop i bodies, List.drop_eq_getElem_cons hi]
    rw [(List.getElem?_eq_some_iff.1 hs).2]
    simp [gidToFind]
  have hget : (gidToFind linkMap bodies)[(gidToFind linkMap (bodies.take i)).length + n]? = some g := by
    rw [hsplit, List.getElem?_append_right (by omega), Nat.add_sub_cancel_left,
      List.getElem?_append_left (List.getElem?_eq_some_iff.1 hg).1, hg]
  unfold Dir.find
  simp only
  rw [List.getElem?_append_left (by simpa using (List.getElem?_eq_some_iff.1 hget).1), List.getElem?_mapIdx, hget]
  simp [he]

theorem bodyBlocks_iff (cfg : Cfg) (dir : Dir Near.EP) (blank : Near.EP) (junk : ℕ → Near.EP) (linkMap : List (ℤ × ℤ)) (bodies : List Sylinder) (buf : List Near.EP) (i : ℕ)
    (s : Sylinder) (hs : bodies[i]? = some s) (hf : ∀ g ∈ nexts linkMap s.gid, ∃ e, dir g = some e) (bs : List Block) :
    BodyBlocks cfg (gidDisp linkMap 0 bodies) (dir.find blank junk (gidToFind linkMap bodies) buf).1 i s bs ↔
      List.Forall₂ (fun g b => ∃ e, dir g = some e ∧ LinkBlock cfg s e b) (nexts linkMap s.gid) bs := by
  have hi := (List.getElem?_eq_some_iff.1 hs).1
  have hn : (gidToFind linkMap (bodies.take (i + 1))).length = (gidToFind linkMap (bodies.take i)).length + (nexts linkMap s.gid).length := by
    rw [List.take_add_one, hs]
    simp [gidToFind]
  unfold BodyBlocks
  rw [disp_get linkMap bodies 0 i (by omega), disp_get linkMap bodies 0 (i + 1) (by omega), hn]
  have hcol : ∀ (a b : ℕ) (F : ℕ → ℕ → Prop), (∃ lb ub, some (0 + a) = some lb ∧ some (0 + b) = some ub ∧ F lb ub) ↔ F a b := by
    intro a b F
    simp
  rw [hcol _ _ fun lb ub => List.Forall₂ (fun j b => ∃ syJ, (dir.find blank junk (gidToFind linkMap bodies) buf).1[j]? = some syJ ∧ LinkBlock cfg s syJ b) ((List.range (ub - lb)).map fun n => lb + n) bs]
  rw [Nat.add_sub_cancel_left, List.forall₂_iff_get, List.forall₂_iff_get]
  simp only [List.length_map, List.length_range, List.get_eq_getElem, List.getElem_map, List.getElem_range]
  refine and_congr_right fun hl => ?_
  refine forall_congr' fun n => forall_congr' fun h1 => forall_congr' fun h2 => ?_
  obtain ⟨e, he⟩ := hf _ (List.getElem_mem h1)
  rw [found_get dir blank junk linkMap bodies buf i n s hs _ (List.getElem?_eq_getElem h1) e he, he]

theorem linkPairs_perm (linkMap : List (ℤ × ℤ)) (bodies : List Sylinder) (hn : (bodies.map Sylinder.gid).Nodup) :
    ((linkPairs linkMap bodies).map fun p => (p.1.gid, p.2)).Perm (linkMap.filter fun l => l.1 ∈ bodies.map Sylinder.gid) := by
  induction bodies with
  | nil => simp [linkPairs]
  | cons s rest ih =>
    rw [List.map_cons, List.nodup_cons] at hn
    have h1 : ((linkPairs linkMap (s :: rest)).map fun p => (p.1.gid, p.2)) = (linkMap.filter fun l => l.1 = s.gid) ++ (linkPairs linkMap rest).map fun p => (p.1.gid, p.2) := by
      unfold linkPairs
      rw [List.flatMap_cons, List.map_append, List.map_map]
      congr 1
      unfold nexts
      rw [List.map_map]
      conv_rhs => rw [← List.map_id (linkMap.filter fun l => l.1 = s.gid)]
      apply List.map_congr_left
      intro l hl
      rw [List.mem_filter] at hl
      have : l.1 = s.gid := by simpa using hl.2
      simp [← this]
    rw [h1]
    refine ((ih hn.2).append_left _).trans ?_
    have h2 := List.filter_append_perm (fun l : ℤ × ℤ => decide (l.1 = s.gid)) (linkMap.filter fun l => l.1 ∈ (s :: rest).map Sylinder.gid)
    refine List.Perm.trans (List.Perm.of_eq ?_) h2
    rw [List.filter_filter, List.filter_filter]
    congr 1
    · apply List.filter_congr
      intro l _
      rw [Bool.eq_iff_iff]
      simp
      intro h
      exact Or.inl h
    · apply List.filter_congr
      intro l _
      rw [Bool.eq_iff_iff]
      simp only [decide_eq_true_eq, Bool.and_eq_true, Bool.not_eq_true', decide_eq_false_iff_not, List.map_cons, List.mem_cons]
      constructor
      · intro h
        refine ⟨?_, Or.inr h⟩
        intro h'
        exact hn.1 (h' ▸ h)
      · rintro ⟨h1, h2 | h2⟩
        · exact absurd h2 h1
        · exact h2

theorem links_core (cfg : Cfg) (hbox : ∀ k, cfg.pbc k = true → cfg.low k < cfg.high k) (linkMap : List (ℤ × ℤ)) (bodies : List Sylinder)
    (thread : ℕ → ℕ) (pool : Pool) (hth : ∀ i, i < bodies.length → thread i < pool.length) (dir : Dir Near.EP) (blank : Near.EP) (junk : ℕ → Near.EP) (buf : List Near.EP)
    (hin : ∀ s ∈ bodies, ∀ k, cfg.pbc k = true → cfg.low k ≤ Near.comp s.pos k ∧ Near.comp s.pos k < cfg.high k) (hsz : ∀ s ∈ bodies, Sized s.radius s.length)
    (hfound : ∀ s ∈ bodies, ∀ l ∈ linkMap, l.1 = s.gid → ∃ e, dir l.2 = some e ∧ Sized e.radius e.length) :
    ∃ pool' news, Collect cfg linkMap bodies (dir.find blank junk (gidToFind linkMap bodies) buf).1 thread pool pool' ∧
      (∀ pool'', Collect cfg linkMap bodies (dir.find blank junk (gidToFind linkMap bodies) buf).1 thread pool pool'' → pool'' = pool') ∧
      pool'.length = pool.length ∧ pool'.flatten.Perm (pool.flatten ++ news) ∧
      List.Forall₂ (fun (p : Sylinder × ℤ) b => ∃ e, dir p.2 = some e ∧ LinkBlock cfg p.1 e b ∧ IsLink cfg p.1 e b) (linkPairs linkMap bodies) news ∧
      ((bodies.map Sylinder.gid).Nodup → ((linkPairs linkMap bodies).map fun p => (p.1.gid, p.2)).Perm (linkMap.filter fun l => l.1 ∈ bodies.map Sylinder.gid)) := by
  have hf : ∀ s ∈ bodies, ∀ g ∈ nexts linkMap s.gid, ∃ e, dir g = some e ∧ Sized e.radius e.length := by
    intro s hs g hg
    unfold nexts at hg
    obtain ⟨l, hl, rfl⟩ := List.mem_map.1 hg
    rw [List.mem_filter] at hl
    exact hfound s hs l hl.1 (by simpa using hl.2)
  have hB : ∀ (s : Sylinder) (g : ℤ), ∃ b, s ∈ bodies → g ∈ nexts linkMap s.gid → ∃ e, dir g = some e ∧ LinkBlock cfg s e b ∧ IsLink cfg s e b ∧ ∀ b', LinkBlock cfg s e b' → b' = b := by
    intro s g
    by_cases hs : s ∈ bodies
    · by_cases hg : g ∈ nexts linkMap s.gid
      · obtain ⟨e, he, hse⟩ := hf s hs g hg
        obtain ⟨b, h1, h2, h3⟩ := linkBlock_spec cfg hbox s e (hin s hs) (hsz s hs) hse
        exact ⟨b, fun _ _ => ⟨e, he, h1, h2, h3⟩⟩
      · exact ⟨⟨0, 0, 0, 0, 0, 0, 0, false, false, 0, 0, 0, 0, 0, 0, 0, fun _ => 0⟩, fun _ h => absurd h hg⟩
    · exact ⟨⟨0, 0, 0, 0, 0, 0, 0, false, false, 0, 0, 0, 0, 0, 0, 0, fun _ => 0⟩, fun h => absurd h hs⟩
  choose B hB using hB
  set data := (dir.find blank junk (gidToFind linkMap bodies) buf).1 with hdata
  let blocks : List (List Block) := bodies.map fun s => (nexts linkMap s.gid).map (B s)
  have hblk : ∀ (i : ℕ) (s : Sylinder), bodies[i]? = some s → ∀ bs, BodyBlocks cfg (gidDisp linkMap 0 bodies) data i s bs ↔ bs = (nexts linkMap s.gid).map (B s) := by
    intro i s hs bs
    have hmem : s ∈ bodies := List.mem_of_getElem? hs
    rw [hdata, bodyBlocks_iff cfg dir blank junk linkMap bodies buf i s hs (fun g hg => (hf s hmem g hg).imp fun _ h => h.1)]
    constructor
    · intro h
      refine forall₂_det (B s) h ?_
      rintro g hg b ⟨e, he, hb⟩
      obtain ⟨e', he', -, -, h4⟩ := hB s g hmem hg
      rw [he] at he'
      cases he'
      exact h4 b hb
    · rintro rfl
      rw [List.forall₂_map_right_iff, List.forall₂_same]
      intro g hg
      obtain ⟨e, he, h1, -⟩ := hB s g hmem hg
      exact ⟨e, he, h1⟩
  have hpool : ∀ pool'', Collect cfg linkMap bodies data thread pool pool'' ↔ pool'' = pool.mapIdx fun t q => q ++ (blocks.zipIdx.filter fun p => thread p.2 = t).flatMap Prod.fst := by
    intro pool''
    constructor
    · rintro ⟨bl, hl, h1, h2⟩
      have : bl = blocks := by
        apply List.ext_getElem?
        intro i
        by_cases hi : i < bodies.length
        · have hs := List.getElem?_eq_getElem hi
          have hb := List.getElem?_eq_getElem (hl ▸ hi : i < bl.length)
          rw [hb, (hblk i _ hs _).1 (h1 i _ _ hs hb), List.getElem?_map, hs]
          rfl
        · rw [List.getElem?_eq_none (by omega), List.getElem?_eq_none (by simp [blocks]; omega)]
      rw [h2, this]
    · intro h
      refine ⟨blocks, by simp [blocks], ?_, h⟩
      intro i s bs hs hb
      rw [hblk i s hs]
      rw [List.getElem?_map, hs] at hb
      simpa using hb.symm
  have hall : (blocks.zipIdx.filter fun p => thread p.2 < pool.length) = blocks.zipIdx := by
    rw [List.filter_eq_self]
    rintro ⟨b, i⟩ hp
    have := List.mem_zipIdx hp
    simp [blocks] at this
    simpa using hth i this.1
  refine ⟨_, blocks.flatten, (hpool _).2 rfl, fun _ h => (hpool _).1 h, by simp, ?_, ?_, ?_⟩
  · have h := flatten_queues pool (fun p : List Block × ℕ => thread p.2) Prod.fst blocks.zipIdx
    rwa [hall, zipIdx_flatMap] at h
  · have hnews : blocks.flatten = (linkPairs linkMap bodies).map fun p => B p.1 p.2 := by
      simp [blocks, linkPairs, List.flatMap_def, List.map_flatten, Function.comp_def]
    rw [hnews, List.forall₂_map_right_iff, List.forall₂_same]
    rintro ⟨s, g⟩ hp
    obtain ⟨s', hs, hp⟩ := List.mem_flatMap.1 hp
    obtain ⟨g', hg, hp⟩ := List.mem_map.1 hp
    cases hp
    obtain ⟨e, he, h2, h3, -⟩ := hB s g hs hg
    exact ⟨e, he, h2, h3⟩
  · exact linkPairs_perm linkMap bodies

/-- **C60** (partial).  Let the first body of every stored link lie in the box along the periodic axes (as `applyBoxBC` leaves it), let the box have positive extent along
them, let the directory hold data for the second body, and let radii be positive.  Then the call ends with exactly one result, whatever the
threads; the constraints already there stay; and the new ones correspond one to one to the stored links of the local bodies, each
being the constraint the link has to be.  If ids are different from each other, every entry of the link map whose first id is that of a local body counts
exactly once.

Missing: first bodies outside the box (`C60_outside_false`), second bodies the directory does not hold (`C60_missing_false`), and unit
normals for ends that coincide (`C60_touching_false`). -/
theorem C60_links_partial (cfg : Cfg) (hbox : ∀ k, cfg.pbc k = true → cfg.low k < cfg.high k) (linkMap : List (ℤ × ℤ)) (bodies : List Sylinder)
    (thread : ℕ → ℕ) (pool : Pool) (hth : ∀ i, i < bodies.length → thread i < pool.length) (dir : Dir Near.EP) (blank : Near.EP) (junk : ℕ → Near.EP) (buf : List Near.EP)
    (hin : ∀ s ∈ bodies, ∀ k, cfg.pbc k = true → cfg.low k ≤ Near.comp s.pos k ∧ Near.comp s.pos k < cfg.high k) (hsz : ∀ s ∈ bodies, Sized s.radius s.length)
    (hfound : ∀ s ∈ bodies, ∀ l ∈ linkMap, l.1 = s.gid → ∃ e, dir l.2 = some e ∧ Sized e.radius e.length) :
    ∃ pool' news, Collect cfg linkMap bodies (dir.find blank junk (gidToFind linkMap bodies) buf).1 thread pool pool' ∧
      (∀ pool'', Collect cfg linkMap bodies (dir.find blank junk (gidToFind linkMap bodies) buf).1 thread pool pool'' → pool'' = pool') ∧
      pool'.length = pool.length ∧ pool'.flatten.Perm (pool.flatten ++ news) ∧
      List.Forall₂ (fun (p : Sylinder × ℤ) b => ∃ e, dir p.2 = some e ∧ IsLink cfg p.1 e b) (linkPairs linkMap bodies) news ∧
      ((bodies.map Sylinder.gid).Nodup → ((linkPairs linkMap bodies).map fun p => (p.1.gid, p.2)).Perm (linkMap.filter fun l => l.1 ∈ bodies.map Sylinder.gid)) := by
  obtain ⟨pool', news, h1, h2, h3, h4, h5, h6⟩ := links_core cfg hbox linkMap bodies thread pool hth dir blank junk buf hin hsz hfound
  exact ⟨pool', news, h1, h2, h3, h4, h5.imp fun _ _ ⟨e, he, _, hb⟩ => ⟨e, he, hb⟩, h6⟩

/-- A rod along z without periodic axes, and one with x periodic of period 10. -/
noncomputable def rodAt (g : ℤ) (p : V3) : Sylinder := { Sylinder.make g 1 1 2 2 with pos := p, orientation := ⟨1, 0, 0, 0⟩ }

theorem rodAt_direction (g : ℤ) (p : V3) : (rodAt g p).direction = ⟨0, 0, 1⟩ := by
  simp [rodAt, Sylinder.direction, Quat.rot, Quat.vec, V3.ext_iff]

theorem rodAt_sized (g : ℤ) (p : V3) : Sized (rodAt g p).radius (rodAt g p).length := by
  simp [rodAt, Sylinder.make, Sized]

def openBox : Cfg := ⟨fun _ => false, fun _ => 0, fun _ => 10, 0, 1⟩
def xBox : Cfg := ⟨fun k => k == 0, fun _ => 0, fun _ => 10, 0, 1⟩

/-- **C60** is false for linked ends that coincide: the normals are zero. -/
theorem C60_touching_false : ∃ b, LinkBlock openBox (rodAt 0 0) (Near.EP.copyFromFP (rodAt 1 ⟨0, 0, 2⟩)) b ∧ b.normI = 0 ∧ b.normJ = 0 := by
  obtain ⟨b, h1, -, -⟩ := linkBlock_spec openBox (by simp [openBox]) (rodAt 0 0) (Near.EP.copyFromFP (rodAt 1 ⟨0, 0, 2⟩)) (by simp [openBox])
    (rodAt_sized _ _) (rodAt_sized 1 ⟨0, 0, 2⟩)
  have h0 := h1
  obtain ⟨c, hc, hb⟩ := h1
  have hcc : c = ⟨0, 0, 2⟩ := by
    apply comp_ext
    intro k
    have := hc k
    simpa [openBox, Near.EP.copyFromFP, rodAt] using this
  subst hcc
  unfold Links.block at hb
  simp only [Option.map_eq_some_iff] at hb
  obtain ⟨S, -, hb⟩ := hb
  have hz : (rodAt 0 0).pos + (0.5 * (rodAt 0 0).length) • (rodAt 0 0).direction - ((⟨0, 0, 2⟩ : V3) - (0.5 * (Near.EP.copyFromFP (rodAt 1 ⟨0, 0, 2⟩)).length) • (Near.EP.copyFromFP (rodAt 1 ⟨0, 0, 2⟩)).direction) = 0 := by
    have h2 : (Near.EP.copyFromFP (rodAt 1 ⟨0, 0, 2⟩)).direction = ⟨0, 0, 1⟩ := rodAt_direction 1 ⟨0, 0, 2⟩
    rw [rodAt_direction, h2]
    simp only [Near.EP.copyFromFP, rodAt, Sylinder.make]
    ext <;> norm_num
  have hn : (0 : V3).normalized = 0 := by
    unfold V3.normalized
    split_ifs
    · ext <;> simp
    · rfl
  refine ⟨b, h0, ?_, ?_⟩
  · rw [← hb]
    simp only [Block.setStress]
    rw [hz, hn]
  · rw [← hb]
    simp only [Block.setStress]
    rw [hz, hn]
    ext <;> simp

/-- **C60** is false for a body outside the box: the image taken is near to the wrapped first centre and not to the first centre. -/
theorem C60_outside_false : (∃ b, LinkBlock xBox (rodAt 0 ⟨12, 0, 0⟩) (Near.EP.copyFromFP (rodAt 1 ⟨1, 0, 0⟩)) b) ∧
    ∀ b, LinkBlock xBox (rodAt 0 ⟨12, 0, 0⟩) (Near.EP.copyFromFP (rodAt 1 ⟨1, 0, 0⟩)) b → ¬ IsLink xBox (rodAt 0 ⟨12, 0, 0⟩) (Near.EP.copyFromFP (rodAt 1 ⟨1, 0, 0⟩)) b := by
  have hnear : GeoUtil.FindPBCImageNear id 0 10 1 12 1 2 := by
    refine ⟨⟨2, WhileEnds.step (by norm_num) ?_, WhileEnds.of_not (by norm_num)⟩, 9, ⟨-1, ?_, ?_⟩, ?_⟩
    · have e : id ((12:ℝ) - id (10 - 0)) = 2 := by norm_num
      rw [e]
      exact WhileEnds.of_not (by norm_num)
    · have e : id ((1:ℝ) - 2) = -1 := by norm_num
      rw [e]
      exact WhileEnds.of_not (by norm_num)
    · refine WhileEnds.step (by norm_num) ?_
      have e : id ((-1:ℝ) + id (id (10 - 0) - 0)) = 9 := by norm_num
      rw [e]
      exact WhileEnds.of_not (by norm_num)
    · norm_num
  have himg : ∀ c, Image xBox (rodAt 0 ⟨12, 0, 0⟩).pos (Near.EP.copyFromFP (rodAt 1 ⟨1, 0, 0⟩)).pos c ↔ c = ⟨1, 0, 0⟩ := by
    intro c
    constructor
    · intro h
      apply comp_ext
      intro k
      have hk := h k
      fin_cases k
      · simp only [xBox] at hk
        obtain ⟨t, h1, -⟩ := hk
        exact near_unique h1 hnear
      · exact hk
      · exact hk
    · rintro rfl k
      fin_cases k
      · refine ⟨2, hnear, ?_⟩
        norm_num [Near.comp, xBox, abs_le]
      · rfl
      · rfl
  have hdir : (Near.EP.copyFromFP (rodAt 1 ⟨1, 0, 0⟩)).direction = ⟨0, 0, 1⟩ := rodAt_direction 1 ⟨1, 0, 0⟩
  constructor
  · obtain ⟨αI, βI, αJ, βJ, -, -, -, -, hS⟩ := Near.collideStress_some (rodAt 0 ⟨12, 0, 0⟩).direction (Near.EP.copyFromFP (rodAt 1 ⟨1, 0, 0⟩)).direction (rodAt 0 ⟨12, 0, 0⟩).pos ⟨1, 0, 0⟩
      (rodAt 0 ⟨12, 0, 0⟩).length (Near.EP.copyFromFP (rodAt 1 ⟨1, 0, 0⟩)).length (rodAt 0 ⟨12, 0, 0⟩).radius (Near.EP.copyFromFP (rodAt 1 ⟨1, 0, 0⟩)).radius
      ((rodAt 0 ⟨12, 0, 0⟩).pos + (0.5 * (rodAt 0 ⟨12, 0, 0⟩).length) • (rodAt 0 ⟨12, 0, 0⟩).direction)
      (⟨1, 0, 0⟩ - (0.5 * (Near.EP.copyFromFP (rodAt 1 ⟨1, 0, 0⟩)).length) • (Near.EP.copyFromFP (rodAt 1 ⟨1, 0, 0⟩)).direction)
      (rodAt_sized _ _).1 (rodAt_sized 1 ⟨1, 0, 0⟩).1 (rodAt_sized _ _).2 (rodAt_sized 1 ⟨1, 0, 0⟩).2
    have hb : ∃ b, Links.block xBox (rodAt 0 ⟨12, 0, 0⟩) (Near.EP.copyFromFP (rodAt 1 ⟨1, 0, 0⟩)) ⟨1, 0, 0⟩ = some b := by
      unfold Links.block
      simp only [hS, Option.map_some]
      exact ⟨_, rfl⟩
    obtain ⟨b, hb⟩ := hb
    exact ⟨b, ⟨1, 0, 0⟩, (himg _).2 rfl, hb⟩
  · rintro b ⟨c, hc, hb⟩ ⟨c', P, Q, hn, -, hQ, -, -, -, -, -, -, -, -, -, hlab, -⟩
    rw [himg] at hc
    subst hc
    have hx : b.labJ.x = 1 := by
      unfold Links.block at hb
      simp only [Option.map_eq_some_iff] at hb
      obtain ⟨S, -, rfl⟩ := hb
      simp only [Block.setStress]
      rw [hdir]
      simp
    rw [hlab, hQ, hdir] at hx
    have h11 := ((hn 0).2 rfl).2 11 ⟨1, by norm_num [Near.comp, xBox, Near.EP.copyFromFP, rodAt]⟩
    have hcx : c'.x = 1 := by simpa using hx
    norm_num [Near.comp, rodAt, hcx] at h11

/-- **C60** is false for ids the directory does not hold: the status of `find` is not looked at and the constraint is made with whatever datum is left. -/
theorem C60_missing_false (junk : Near.EP) (hj : Sized junk.radius junk.length) (blank : Near.EP) :
    (Dir.empty.find blank (fun _ => junk) (gidToFind [(0, 1)] [rodAt 0 0]) []).2 = false ∧
    ∃ b, Collect openBox [(0, 1)] [rodAt 0 0] (Dir.empty.find blank (fun _ => junk) (gidToFind [(0, 1)] [rodAt 0 0]) []).1 (fun _ => 0) [[]] [[b]] ∧ b.gidJ = junk.gid := by
  have hg : (rodAt 0 0).gid = 0 := rfl
  have hfind : Dir.empty.find blank (fun _ => junk) (gidToFind [(0, 1)] [rodAt 0 0]) [] = ([junk], false) := by
    simp [Dir.find, gidToFind, nexts, hg, Dir.empty]
  rw [hfind]
  refine ⟨rfl, ?_⟩
  obtain ⟨b, h1, h2, -⟩ := linkBlock_spec openBox (by simp [openBox]) (rodAt 0 0) junk (by simp [openBox]) (rodAt_sized _ _) hj
  refine ⟨b, ⟨[[b]], rfl, ?_, by simp⟩, ?_⟩
  · intro i s bs hs hbs
    cases i with
    | zero =>
      simp at hs hbs
      subst hs hbs
      refine ⟨0, 1, by simp [gidDisp], by simp [gidDisp, nexts, hg], ?_⟩
      simp
      exact h1
    | succ i => simp at hs
  · obtain ⟨c, P, Q, -, -, -, -, -, -, -, -, h, -⟩ := h2
    exact h

/-- A link across the periodic boundary: from a body at x = 9 to one at x = 1, whose image nearest to the first is at x = 11. -/
example : ∃ pool' b, Collect xBox [(0, 1)] [rodAt 0 ⟨9, 0, 0⟩] (((published [rodAt 0 ⟨9, 0, 0⟩, rodAt 1 ⟨1, 0, 0⟩]).foldl Dir.put Dir.empty).find (Near.EP.copyFromFP (rodAt 0 0))
      (fun _ => Near.EP.copyFromFP (rodAt 0 0)) (gidToFind [(0, 1)] [rodAt 0 ⟨9, 0, 0⟩]) []).1 (fun _ => 0) [[]] pool' ∧
    pool'.flatten.Perm [b] ∧ IsLink xBox (rodAt 0 ⟨9, 0, 0⟩) (Near.EP.copyFromFP (rodAt 1 ⟨1, 0, 0⟩)) b := by
  have hd : (published [rodAt 0 ⟨9, 0, 0⟩, rodAt 1 ⟨1, 0, 0⟩]).foldl Dir.put Dir.empty 1 = some (Near.EP.copyFromFP (rodAt 1 ⟨1, 0, 0⟩)) := by
    have : (rodAt 1 ⟨1, 0, 0⟩).gid = 1 := rfl
    simp [published, Dir.put, this]
  obtain ⟨pool', news, h1, -, -, h4, h5, -⟩ := C60_links_partial xBox (by simp [xBox]) [(0, 1)] [rodAt 0 ⟨9, 0, 0⟩] (fun _ => 0) [[]] (by simp)
    ((published [rodAt 0 ⟨9, 0, 0⟩, rodAt 1 ⟨1, 0, 0⟩]).foldl Dir.put Dir.empty) (Near.EP.copyFromFP (rodAt 0 0)) (fun _ => Near.EP.copyFromFP (rodAt 0 0)) []
    (by
      intro s hs k hk
      simp at hs
      subst hs
      have : k = 0 := by simpa [xBox] using hk
      subst this
      norm_num [xBox, Near.comp, rodAt]) (by
      intro s hs
      simp at hs
      subst hs
      exact rodAt_sized _ _) (by
      intro s hs l hl _
      simp at hl
      subst hl
      exact ⟨_, hd, rodAt_sized 1 ⟨1, 0, 0⟩⟩)
  have hp : linkPairs [(0, 1)] [rodAt 0 ⟨9, 0, 0⟩] = [(rodAt 0 ⟨9, 0, 0⟩, 1)] := by
    have : (rodAt 0 ⟨9, 0, 0⟩).gid = 0 := rfl
    simp [linkPairs, nexts, this]
  rw [hp] at h5
  cases h5 with
  | cons h h' =>
    cases h'
    obtain ⟨e, he, hl⟩ := h
    rw [hd] at he
    cases he
    exact ⟨pool', _, h1, by simpa using h4, hl⟩

end Verif
