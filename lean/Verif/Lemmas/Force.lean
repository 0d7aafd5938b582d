import Verif.Spec.Force
import Verif.Props.Radix
import Verif.Props.Morton
import Verif.Props.Walk
import Verif.Props.RootCell
import Verif.Lemmas.Exchange
import Mathlib.Data.List.Sort
/-! Lemmas on `calcForceAll`. -/
namespace Verif.Force
open Tree Image Let RootCell

variable {α β : Type}

theorem halfLen_pos {f : Morton.Frame} {p : V3} (h : Morton.InRoot f p) : 0 < f.halfLen := by
  obtain ⟨⟨h1, h2⟩, _⟩ := h
  linarith

/-- The tree particles belong to particles of `eps`. -/
def KeyOf (f : Morton.Frame) (eps : List (Ep α)) (t : TP) : Prop :=
  ∃ e, eps[t.adr]? = some e ∧ Morton.getKey f e.pos = some t.key ∧ t.key.toNat < 2 ^ 63

theorem setTPs_spec (f : Morton.Frame) (pre : List (Ep α)) (es : List (Ep α)) (h : ∀ e ∈ es, Morton.InRoot f e.pos) :
    ∀ pre : List (Ep α), ∃ tps, setTPs f pre.length es = some tps ∧ tps.map TP.adr = List.range' pre.length es.length ∧
      ∀ t ∈ tps, KeyOf f (pre ++ es) t := by
  induction es with
  | nil => exact fun pre => ⟨[], rfl, rfl, by simp⟩
  | cons e es ih =>
    intro pre
    obtain ⟨tps, h1, h2, h3⟩ := ih (fun e he => h e (List.mem_cons_of_mem _ he)) (pre ++ [e])
    have he := h e List.mem_cons_self
    obtain ⟨k, k1, k2⟩ := C68_key_defined f e.pos (halfLen_pos he) he
    rw [List.length_append, List.length_singleton] at h1 h2
    refine ⟨⟨k, pre.length⟩ :: tps, ?_, ?_, ?_⟩
    · rw [setTPs, k1, h1]
    · rw [List.map_cons, h2, List.length_cons, List.range'_succ]
    · intro t ht
      rcases List.mem_cons.mp ht with rfl | ht
      · exact ⟨e, by simp, k1, k2⟩
      · obtain ⟨e', e1, e2⟩ := h3 t ht
        refine ⟨e', ?_, e2⟩
        rw [List.append_assoc, List.singleton_append] at e1
        exact e1

theorem gather_spec (eps : List β) (as : List ℕ) (h : ∀ a ∈ as, a < eps.length) :
    ∃ l, gather eps as = some l ∧ l.map some = as.map (fun (a : ℕ) => eps[a]?) := by
  induction as with
  | nil => exact ⟨[], rfl, rfl⟩
  | cons a as ih =>
    obtain ⟨l, h1, h2⟩ := ih (fun a ha => h a (List.mem_cons_of_mem _ ha))
    have ha := h a List.mem_cons_self
    refine ⟨eps[a] :: l, ?_, ?_⟩
    · rw [gather, h1, List.getElem?_eq_getElem ha]
    · rw [List.map_cons, h2, List.map_cons, List.getElem?_eq_getElem ha]

theorem makeTree_spec (big : ℝ) (limit : ℕ) (hl : 1 ≤ limit) (x : TreeExec) (hx : x.Valid) (keys : List (BitVec 64))
    (hs : SortedKeys keys) (eps : List (Ep α)) (hlen : eps.length = keys.length) :
    ∃ T, makeTree big limit x keys eps = some T ∧ Built big keys T ∧ T.eps = eps ∧ T.limit = limit := by
  obtain ⟨r, R, h1, h2⟩ := linkCell_final keys hs limit hl x.order hx.1 x.part x.m
  obtain ⟨mom, h3, _⟩ := calcMoment_eq big r keys limit x.order' hx.2 eps (linked_of_final keys limit R r h2) hlen x.mom
  refine ⟨⟨r, mom, eps, limit⟩, ?_, ⟨x.order, x.order', x.part, x.m, x.mom, hx.1, hx.2, hs, hl, hlen, h1, h3⟩, rfl, rfl⟩
  rw [makeTree, h1]
  simp only
  rw [h3]

theorem pairwise_of_stable {γ : Type} {key : γ → ℕ} {val out : List γ} (h : Radix.StableSorted key val out) :
    out.Pairwise (fun a b => key a ≤ key b) := by
  obtain ⟨idx, _, h2, h3⟩ := h
  have : ∀ (idx : List ℕ) (out : List γ), out.map some = idx.map (fun i => val[i]?) →
      idx.Pairwise (fun i j => ∀ a b, val[i]? = some a → val[j]? = some b → key a < key b ∨ key a = key b ∧ i < j) →
      out.Pairwise (fun a b => key a ≤ key b) := by
    intro idx
    induction idx with
    | nil =>
      intro out h _
      simp only [List.map_nil, List.map_eq_nil_iff] at h
      rw [h]; exact List.Pairwise.nil
    | cons i idx ih =>
      intro out h hp
      cases out with
      | nil => exact List.Pairwise.nil
      | cons a out =>
        simp only [List.map_cons, List.cons.injEq] at h
        rw [List.pairwise_cons] at hp
        refine List.Pairwise.cons (fun b hb => ?_) (ih out h.2 hp.2)
        have hb' : some b ∈ out.map some := List.mem_map.mpr ⟨b, hb, rfl⟩
        rw [h.2] at hb'
        obtain ⟨j, hj, hbj⟩ := List.mem_map.mp hb'
        rcases hp.1 j hj a b h.1.symm hbj with h | h
        · exact h.le
        · exact h.1.le
  exact this idx out h2 h3

theorem sortTree_spec (f : Morton.Frame) (big : ℝ) (limit nt : ℕ) (hl : 1 ≤ limit) (hnt : 1 ≤ nt) (y : SortExec) (x : TreeExec)
    (hx : x.Valid) (tps : List TP) (eps : List (Ep α)) (hbuf : y.buf.length = eps.length)
    (hs : ∀ l, Radix.Static eps.length nt (y.s l)) (hadr : (tps.map TP.adr).Perm (List.range eps.length))
    (hk : ∀ t ∈ tps, KeyOf f eps t) :
    ∃ (sorted : List TP) (T : MTree α), sortTree big limit nt y x tps eps = some (sorted, T) ∧ sorted.Perm tps ∧
      Built big (sorted.map TP.key) T ∧ T.eps.map some = sorted.map (fun t => eps[t.adr]?) ∧ T.limit = limit := by
  have hlen : tps.length = eps.length := by
    have := hadr.length_eq
    rwa [List.length_map, List.length_range] at this
  obtain ⟨sorted, h1, h2, h3⟩ := C67_radix_sort_correct 64 nt (by omega) (by omega) y.s (fun t : TP => t.key.toNat) tps y.buf
    (by rw [hbuf, hlen]) (fun t _ => t.key.isLt) (by rw [hlen]; exact hs)
  obtain ⟨l, g1, g2⟩ := gather_spec eps (sorted.map TP.adr) (fun a ha => by
    have := ((h2.map TP.adr).trans hadr).mem_iff.mp ha
    exact List.mem_range.mp this)
  have hl2 : l.length = (sorted.map TP.key).length := by
    have := congrArg List.length g2
    simpa using this
  obtain ⟨T, t1, t2, t3, t4⟩ := makeTree_spec big limit hl x hx (sorted.map TP.key)
    ⟨by
      rw [List.pairwise_map]
      exact pairwise_of_stable h3, fun k hk' => by
      obtain ⟨t, ht, rfl⟩ := List.mem_map.mp hk'
      obtain ⟨_, _, _, h⟩ := hk t (h2.mem_iff.mp ht)
      exact h⟩ l hl2
  refine ⟨sorted, T, ?_, h2, t2, ?_, t4⟩
  · rw [sortTree, h1]
    simp only
    rw [g1]
    simp only
    rw [t1]
  · rw [t3, g2, List.map_map]
    rfl

theorem forRanks_spec (g : ℕ → Option β) (n : ℕ) (h : ∀ r < n, ∃ x, g r = some x) :
    ∃ l, forRanks g n = some l ∧ l.length = n ∧ ∀ r < n, l[r]? = g r := by
  induction n with
  | zero => exact ⟨[], rfl, rfl, by simp⟩
  | succ n ih =>
    obtain ⟨l, h1, h2, h3⟩ := ih (fun r hr => h r (by omega))
    obtain ⟨x, hx⟩ := h n (by omega)
    refine ⟨l ++ [x], by rw [forRanks, h1, hx], by simp [h2], fun r hr => ?_⟩
    rcases Nat.lt_or_ge r n with h | h
    · rw [List.getElem?_append_left (by omega)]; exact h3 r h
    · obtain rfl : r = n := by omega
      rw [← h2, List.getElem?_concat_length, h2, hx]

theorem perm_eps {eps : List (Ep α)} {sorted : List TP} {l : List (Ep α)} (h : l.map some = sorted.map (fun t => eps[t.adr]?))
    (hadr : (sorted.map TP.adr).Perm (List.range eps.length)) : l.Perm eps := by
  have h1 : (l.map some).Perm ((List.range eps.length).map (fun (i : ℕ) => eps[i]?)) := by
    rw [h]
    have := hadr.map (fun (i : ℕ) => eps[i]?)
    rwa [List.map_map] at this
  have h2 : (List.range eps.length).map (fun (i : ℕ) => eps[i]?) = eps.map some := by
    apply List.ext_getElem (by simp)
    intro i h1 h2
    simp only [List.getElem_map, List.getElem_range]
    rw [List.getElem?_eq_getElem]
  rw [h2] at h1
  exact (List.map_perm_map_iff (Option.some_injective _)).mp h1

/-- The trees of the second step. -/
theorem treeA_builds (f : Morton.Frame) (big : ℝ) (srt : List TP → List TP)
    (hsrt : ∀ l, (srt l).Perm l ∧ (srt l).Pairwise (fun s t => s.key.toNat ≤ t.key.toNat)) (x : List (Ep α) → TreeExec)
    (hx : ∀ es, (x es).Valid) : Builds f big (fun es : List (Ep α) => treeA f big srt (x es) es) := by
  intro es _ hin
  obtain ⟨tps, s1, s2, s3⟩ := setTPs_spec f [] es hin []
  simp only [List.length_nil, List.nil_append] at s1 s2 s3
  have hadr : ((srt tps).map TP.adr).Perm (List.range es.length) := by
    rw [List.range_eq_range', ← s2]
    exact (hsrt tps).1.map _
  obtain ⟨l, g1, g2⟩ := gather_spec es ((srt tps).map TP.adr) (fun a ha => List.mem_range.mp (hadr.mem_iff.mp ha))
  have hl2 : l.length = ((srt tps).map TP.key).length := by
    have := congrArg List.length g2
    simpa using this
  have hkey : ∀ t ∈ srt tps, KeyOf f es t := fun t ht => s3 t ((hsrt tps).1.mem_iff.mp ht)
  obtain ⟨T, t1, t2, t3, t4⟩ := makeTree_spec big 1 (le_refl _) (x es) (hx es) ((srt tps).map TP.key)
    ⟨by
      rw [List.pairwise_map]
      exact (hsrt tps).2, fun k hk' => by
      obtain ⟨t, ht, rfl⟩ := List.mem_map.mp hk'
      obtain ⟨_, _, _, h⟩ := hkey t ht
      exact h⟩ l hl2
  rw [List.map_map] at g2
  refine ⟨T, ?_, _, t2, t4, by rw [t3]; exact perm_eps g2 hadr, ?_⟩
  · show treeA f big srt (x es) es = some T
    rw [treeA, s1]
    simp only
    rw [g1]
    exact t1
  · rw [t3]
    have : ∀ (ts : List TP) (l : List (Ep α)), (∀ t ∈ ts, KeyOf f es t) → l.map some = ts.map ((fun (a : ℕ) => es[a]?) ∘ TP.adr) →
        l.map (fun e => Morton.getKey f e.pos) = (ts.map TP.key).map some := by
      intro ts
      induction ts with
      | nil => intro l _ h; simp only [List.map_nil, List.map_eq_nil_iff] at h; rw [h]; rfl
      | cons t ts ih =>
        intro l hk h
        cases l with
        | nil => simp at h
        | cons e l =>
          simp only [List.map_cons, List.cons.injEq, Function.comp] at h
          obtain ⟨e', e1, e2, _⟩ := hk t List.mem_cons_self
          rw [← h.1] at e1
          obtain rfl := Option.some.inj e1
          simp only [List.map_cons, e2]
          congr 1
          exact ih l (fun t ht => hk t (List.mem_cons_of_mem _ ht)) h.2
    exact this _ _ hkey g2

/-- The sides of the outer box of some particles, beginning with the box `m`. -/
theorem vout_witness (l : List (Ep α)) : ∀ m : Mom, ∀ t : ℝ,
    ((l.foldl Mom.atLeaf m).vout.low.x ≤ t → m.vout.low.x ≤ t ∨ ∃ e ∈ l, e.pos.x - e.rs ≤ t) ∧
    ((l.foldl Mom.atLeaf m).vout.low.y ≤ t → m.vout.low.y ≤ t ∨ ∃ e ∈ l, e.pos.y - e.rs ≤ t) ∧
    ((l.foldl Mom.atLeaf m).vout.low.z ≤ t → m.vout.low.z ≤ t ∨ ∃ e ∈ l, e.pos.z - e.rs ≤ t) ∧
    (t ≤ (l.foldl Mom.atLeaf m).vout.high.x → t ≤ m.vout.high.x ∨ ∃ e ∈ l, t ≤ e.pos.x + e.rs) ∧
    (t ≤ (l.foldl Mom.atLeaf m).vout.high.y → t ≤ m.vout.high.y ∨ ∃ e ∈ l, t ≤ e.pos.y + e.rs) ∧
    (t ≤ (l.foldl Mom.atLeaf m).vout.high.z → t ≤ m.vout.high.z ∨ ∃ e ∈ l, t ≤ e.pos.z + e.rs) := by
  induction l with
  | nil => exact fun m t => ⟨Or.inl, Or.inl, Or.inl, Or.inl, Or.inl, Or.inl⟩
  | cons e l ih =>
    intro m t
    obtain ⟨h1, h2, h3, h4, h5, h6⟩ := ih (m.atLeaf e) t
    simp only [List.foldl_cons]
    have key : ∀ {A B C D : Prop} {q : Ep α → Prop}, (A → B ∨ ∃ e ∈ l, q e) → (B → C ∨ D) → (D → q e) → A → C ∨ ∃ e' ∈ e :: l, q e' := by
      intro A B C D q a b c d
      rcases a d with h | ⟨e', he', h⟩
      · rcases b h with h | h
        · exact Or.inl h
        · exact Or.inr ⟨e, List.mem_cons_self, c h⟩
      · exact Or.inr ⟨e', List.mem_cons_of_mem _ he', h⟩
    simp only [Mom.atLeaf, Box.mergeSphere_eq, Box.merge, Box.around, Box.pickMax_eq, Box.pickMin_eq] at h1 h2 h3 h4 h5 h6 ⊢
    exact ⟨key h1 min_le_iff.mp id, key h2 min_le_iff.mp id, key h3 min_le_iff.mp id, key h4 le_max_iff.mp id,
      key h5 le_max_iff.mp id, key h6 le_max_iff.mp id⟩

theorem root_hull {big : ℝ} {keys : List (BitVec 64)} {T : MTree α} (h : Built big keys T) : T.mom 0 = hull big T.eps := by
  have hG := h.good
  rw [hG.mom 0 0 0 _ (le_refl _) hG.linked.root]
  congr 1
  rw [← hG.len]
  simp [slice]

theorem axis_spans (p : Bool) (l all : List (Ep α)) (hsub : ∀ e ∈ l, e ∈ all) (co : V3 → ℝ) {big rlo rhi dlo dhi L : ℝ} {k : ℤ}
    {e0 : Ep α} (he0 : e0 ∈ l) (h1 : rlo ≤ co e0.pos) (h2 : co e0.pos ≤ rhi) (hr : 0 ≤ e0.rs)
    (hb : p = true → -big < rlo ∧ rhi < big) (hk : p = false → k = 0) (hd1 : rlo ≤ dlo) (hd2 : dhi ≤ rhi)
    (w1 : big ≤ dhi + k * L ∨ ∃ e ∈ l, co e.pos - e.rs ≤ dhi + k * L)
    (w2 : dlo + k * L ≤ -big ∨ ∃ e ∈ l, dlo + k * L ≤ co e.pos + e.rs) : Spans all co (rlo + k * L) (rhi + k * L) := by
  have hw1 : ∃ e ∈ all, co e.pos - e.rs ≤ rhi + k * L := by
    rcases w1 with h | ⟨e, he, h⟩
    · refine ⟨e0, hsub _ he0, ?_⟩
      cases p with
      | true => have := (hb rfl).2; linarith
      | false => rw [hk rfl]; push_cast; linarith
    · exact ⟨e, hsub _ he, by linarith⟩
  have hw2 : ∃ e ∈ all, rlo + k * L ≤ co e.pos + e.rs := by
    rcases w2 with h | ⟨e, he, h⟩
    · refine ⟨e0, hsub _ he0, ?_⟩
      cases p with
      | true => have := (hb rfl).1; linarith
      | false => rw [hk rfl]; push_cast; linarith
    · exact ⟨e, hsub _ he, by linarith⟩
  exact ⟨hw1, hw2⟩

theorem axis_empty {big rlo rhi dlo dhi x : ℝ} (hb : -big < rlo ∧ rhi < big) (hd1 : rlo ≤ dlo) (hd2 : dhi ≤ rhi)
    (w1 : big ≤ dhi + x) (w2 : dlo + x ≤ -big) : False := by
  obtain ⟨a, b⟩ := hb
  linarith

/-- The trees of the ranks of a setup. -/
theorem Setup.world {c : Config} {d : Dinfo} {P : ℕ → List (Ep α)} (hS : Setup c d P) {f : Morton.Frame} {T : ℕ → MTree α}
    (hB : ∀ r < d.n, ∃ keys, Built c.big keys (T r)) (hP : ∀ r < d.n, (T r).eps.Perm (P r))
    (hf : ∀ r < d.n, ∀ e ∈ P r, Morton.InRoot f e.pos)
    (hR : ∀ s, Allowed d.pa s → Reaches d.root ((List.range d.n).flatMap P) s → ∀ r < d.n, ∀ e ∈ P r,
      Morton.InRoot f (e.pos + shiftOf d.size s) ∧ Morton.InRoot f (e.pos - shiftOf d.size s)) : World d f c.big T := by
  have hmem : ∀ r < d.n, ∀ e, e ∈ (T r).eps ↔ e ∈ P r := fun r hr e => (hP r hr).mem_iff
  have hcorner : ∀ r < d.n, Box.Le (d.dom r) d.root := fun r hr => (Box.le_iff_mem (hS.proper r hr)).mpr (hS.inRoot r hr)
  have hsize : d.size.x = d.root.high.x - d.root.low.x ∧ d.size.y = d.root.high.y - d.root.low.y ∧
      d.size.z = d.root.high.z - d.root.low.z := ⟨rfl, rfl, rfl⟩
  obtain ⟨sx, sy, sz⟩ := hsize
  refine ⟨hB, fun r hr e he => hS.inDom r hr e ((hmem r hr e).mp he), fun r hr e he => hS.radius r hr e ((hmem r hr e).mp he),
    hS.proper, hS.inRoot, hS.extent, ⟨fun h => ?_, fun h => ?_, fun h => ?_⟩, ?_, ?_⟩
  · obtain ⟨a, b⟩ := hS.small.1 h; rw [sx]; linarith
  · obtain ⟨a, b⟩ := hS.small.2.1 h; rw [sy]; linarith
  · obtain ⟨a, b⟩ := hS.small.2.2 h; rw [sz]; linarith
  · intro a ha b hb s hs ho
    obtain ⟨keys, hk⟩ := hB a ha
    rw [root_hull hk, hull, Box.overlapped_iff] at ho
    have hw := vout_witness (T a).eps (Mom.init c.big)
    obtain ⟨⟨c1, c2⟩, ⟨c3, c4⟩, c5, c6⟩ := hcorner b hb
    simp only [Dinfo.image, Box.shift, V3.add_x, V3.add_y, V3.add_z, shiftOf] at ho
    obtain ⟨⟨o1, o2⟩, ⟨o3, o4⟩, o5, o6⟩ := ho
    have w1 := (hw _).1 o1
    have w2 := (hw _).2.2.2.1 o2
    have w3 := (hw _).2.1 o3
    have w4 := (hw _).2.2.2.2.1 o4
    have w5 := (hw _).2.2.1 o5
    have w6 := (hw _).2.2.2.2.2 o6
    simp only [Mom.init, Box.negative] at w1 w2 w3 w4 w5 w6
    have hone : ∀ e ∈ (T a).eps, ∀ r < d.n, ∀ e ∈ P r,
        Morton.InRoot f (e.pos + shiftOf d.size s) ∧ Morton.InRoot f (e.pos - shiftOf d.size s) := by
      intro e0 he0
      have hsub : ∀ e ∈ (T a).eps, e ∈ (List.range d.n).flatMap P := fun e he =>
        List.mem_flatMap.mpr ⟨a, List.mem_range.mpr ha, (hmem a ha e).mp he⟩
      have hr0 := hS.radius a ha e0 ((hmem a ha e0).mp he0)
      obtain ⟨⟨m1, m2⟩, ⟨m3, m4⟩, m5, m6⟩ := hS.inRoot a ha _ (hS.inDom a ha e0 ((hmem a ha e0).mp he0)).mem
      exact hR s hs ⟨axis_spans d.pa.x _ _ hsub V3.x he0 m1 m2 hr0 hS.small.1 hs.1 c1 c2 w1 w2,
        axis_spans d.pa.y _ _ hsub V3.y he0 m3 m4 hr0 hS.small.2.1 hs.2.1 c3 c4 w3 w4,
        axis_spans d.pa.z _ _ hsub V3.z he0 m5 m6 hr0 hS.small.2.2 hs.2.2 c5 c6 w5 w6⟩
    constructor
    · exact fun e he => (hone e he a ha e ((hmem a ha e).mp he)).2
    · intro e he
      by_cases hemp : (T a).eps = []
      · simp only [hemp, List.not_mem_nil, false_and, exists_false, or_false] at w1 w2 w3 w4 w5 w6
        have hx : d.pa.x = false := by
          by_contra h
          exact axis_empty (hS.small.1 (by simpa using h)) c1 c2 w1 w2
        have hy : d.pa.y = false := by
          by_contra h
          exact axis_empty (hS.small.2.1 (by simpa using h)) c3 c4 w3 w4
        have hz : d.pa.z = false := by
          by_contra h
          exact axis_empty (hS.small.2.2 (by simpa using h)) c5 c6 w5 w6
        have h0 : e.pos + shiftOf d.size s = e.pos := by
          ext <;> simp [shiftOf, hs.1 hx, hs.2.1 hy, hs.2.2 hz]
        rw [h0]
        exact hf b hb e ((hmem b hb e).mp he)
      · obtain ⟨e0, he0⟩ := List.exists_mem_of_ne_nil _ hemp
        exact (hone e0 he0 b hb e ((hmem b hb e).mp he)).1
  · intro hal a ha b hb ho
    obtain ⟨keys, hk⟩ := hB a ha
    rw [root_hull hk, hull, Box.overlapped_iff] at ho
    have w2 := (vout_witness (T a).eps (Mom.init c.big) _).2.2.2.1 ho.1.2
    have hx : d.pa.x = true := by
      by_contra h
      have := hal.1 (by simpa using h)
      simp at this
    obtain ⟨b1, b2⟩ := hS.small.1 hx
    have hL := hS.extent.1 hx
    obtain ⟨⟨c1, c2⟩, _⟩ := hcorner b hb
    simp only [Dinfo.image, Box.shift, V3.add_x, shiftOf, Mom.init, Box.negative] at w2
    push_cast at w2
    rcases w2 with h | ⟨e, he, h⟩
    · linarith
    · have he' := (hmem a ha e).mp he
      have hs := hS.short hx a ha e he'
      have hm := (hS.inRoot a ha _ (hS.inDom a ha e he').mem).1.2
      linarith

theorem localTree_spec (f : Morton.Frame) (big : ℝ) (limit nt : ℕ) (hl : 1 ≤ limit) (hnt : 1 ≤ nt) (y : SortExec) (x : TreeExec)
    (hx : x.Valid) (es : List (Ep α)) (hbuf : y.buf.length = es.length) (hs : ∀ l, Radix.Static es.length nt (y.s l))
    (hin : ∀ e ∈ es, Morton.InRoot f e.pos) :
    ∃ (sorted : List TP) (T : MTree α), localTree f big limit nt y x es = some (sorted, T) ∧
      (sorted.map TP.adr).Perm (List.range es.length) ∧ (∀ t ∈ sorted, KeyOf f es t) ∧ Built big (sorted.map TP.key) T ∧
      T.eps.map some = sorted.map (fun t => es[t.adr]?) ∧ T.limit = limit := by
  obtain ⟨tps, s1, s2, s3⟩ := setTPs_spec f [] es hin []
  simp only [List.length_nil, List.nil_append] at s1 s2 s3
  have hadr : (tps.map TP.adr).Perm (List.range es.length) := by rw [s2, List.range_eq_range']
  obtain ⟨sorted, T, h1, h2, h3, h4, h5⟩ := sortTree_spec f big limit nt hl hnt y x hx tps es hbuf hs hadr s3
  exact ⟨sorted, T, by rw [localTree, s1]; exact h1, (h2.map _).trans hadr, fun t ht => s3 t (h2.mem_iff.mp ht), h3, h4, h5⟩

theorem KeyOf.append {f : Morton.Frame} {es : List (Ep α)} {t : TP} (h : KeyOf f es t) (rs : List (Ep α)) : KeyOf f (es ++ rs) t := by
  obtain ⟨e, h1, h2⟩ := h
  exact ⟨e, by rw [List.getElem?_append_left (List.getElem?_eq_some_iff.mp h1).1]; exact h1, h2⟩

theorem globalTree_spec (f : Morton.Frame) (big : ℝ) (limit nt : ℕ) (hl : 1 ≤ limit) (hnt : 1 ≤ nt) (y : SortExec) (x : TreeExec)
    (hx : x.Valid) (tps : List TP) (es rs : List (Ep α)) (hbuf : y.buf.length = es.length + rs.length)
    (hs : ∀ l, Radix.Static (es.length + rs.length) nt (y.s l)) (hadr : (tps.map TP.adr).Perm (List.range es.length))
    (hk : ∀ t ∈ tps, KeyOf f es t) (hin : ∀ e ∈ rs, Morton.InRoot f e.pos) :
    ∃ (sorted : List TP) (T : MTree α), globalTree f big limit nt y x tps es rs = some (sorted, T) ∧
      (sorted.map TP.adr).Perm (List.range (es ++ rs).length) ∧ Built big (sorted.map TP.key) T ∧
      T.eps.map some = sorted.map (fun t => (es ++ rs)[t.adr]?) ∧ T.limit = limit := by
  obtain ⟨l, s1, s2, s3⟩ := setTPs_spec f [] rs hin es
  have hadr' : ((tps ++ l).map TP.adr).Perm (List.range (es ++ rs).length) := by
    rw [List.map_append, s2, List.length_append, List.range_eq_range', List.range'_append_1.symm.trans (by rw [Nat.zero_add])]
    rw [← List.range_eq_range']
    exact hadr.append_right _
  obtain ⟨sorted, T, h1, h2, h3, h4, h5⟩ := sortTree_spec f big limit nt hl hnt y x hx (tps ++ l) (es ++ rs)
    (by rw [hbuf, List.length_append]) (by rw [List.length_append]; exact hs) hadr' (fun t ht => by
      rcases List.mem_append.mp ht with h | h
      · exact (hk t h).append rs
      · exact s3 t h)
  exact ⟨sorted, T, by rw [globalTree, s1]; exact h1, (h2.map _).trans hadr', h3, h4, h5⟩

/-! The loop over the groups. -/

theorem put_spec {R : Type} (rs : List R) : ∀ (a : ℕ) (fs : List (Option R)), a + rs.length ≤ fs.length →
    ∃ fs', put a rs fs = some fs' ∧ fs'.length = fs.length ∧
      (∀ t < rs.length, fs'[a + t]? = some rs[t]?) ∧ ∀ q, q < a ∨ a + rs.length ≤ q → fs'[q]? = fs[q]? := by
  induction rs with
  | nil => exact fun a fs _ => ⟨fs, rfl, rfl, by simp, fun _ _ => rfl⟩
  | cons r rs ih =>
    intro a fs h
    rw [List.length_cons] at h
    obtain ⟨fs', h1, h2, h3, h4⟩ := ih (a + 1) (fs.set a (some r)) (by rw [List.length_set]; omega)
    rw [List.length_set] at h2
    refine ⟨fs', by rw [put, if_pos (by omega)]; exact h1, h2, ?_, ?_⟩
    · intro t ht
      rw [List.length_cons] at ht
      cases t with
      | zero =>
        rw [Nat.add_zero, h4 a (Or.inl (by omega)), List.getElem?_set_self (by omega)]
        rfl
      | succ t =>
        have := h3 t (by omega)
        rw [show a + (t + 1) = a + 1 + t by omega, this, List.getElem?_cons_succ]
    · intro q hq
      rw [List.length_cons] at hq
      rw [h4 q (by omega), List.getElem?_set_ne (by omega)]

/-- The particles of a group of the local tree and its interaction list. -/
noncomputable def gl (L G : MTree α) (g : Group) : List (Ep α) × List (Ep α) := (groupLists L G g).getD ([], [])

theorem forceLoop_spec {R O : Type} (ftr : List (Ep α) → List (Ep α) → List R × List O) (L G : MTree α) (gs : List Group) (n : ℕ)
    (hg : ∀ g ∈ gs, g.adr + g.n ≤ n ∧ groupLists L G g = some (gl L G g) ∧ (ftr (gl L G g).1 (gl L G g).2).1.length = g.n)
    (hdisj : ∀ (k k' : ℕ) (g g' : Group) (q : ℕ), gs[k]? = some g → gs[k']? = some g' → g.adr ≤ q → q < g.adr + g.n → g'.adr ≤ q →
      q < g'.adr + g'.n → k = k') (is : List ℕ) :
    is.Nodup → (∀ i ∈ is, i < gs.length) → ∀ (fs : List (Option R)) (out : List O), fs.length = n →
      ∃ (fs' : List (Option R)) (hs : List Group), forceLoop ftr L G gs is fs out =
          some (fs', out ++ hs.flatMap (fun g => (ftr (gl L G g).1 (gl L G g).2).2)) ∧ hs.map some = is.map (fun (i : ℕ) => gs[i]?) ∧
        fs'.length = n ∧ (∀ g ∈ hs, ∀ t < g.n, fs'[g.adr + t]? = some (ftr (gl L G g).1 (gl L G g).2).1[t]?) ∧
        ∀ q, (∀ g ∈ hs, q < g.adr ∨ g.adr + g.n ≤ q) → fs'[q]? = fs[q]? := by
  induction is with
  | nil => exact fun _ _ fs out h => ⟨fs, [], by simp [forceLoop], rfl, h, by simp, fun _ _ => rfl⟩
  | cons i is ih =>
    intro hnd hlt fs out hfs
    rw [List.nodup_cons] at hnd
    have hi := hlt i List.mem_cons_self
    have hgi : gs[i]? = some gs[i] := List.getElem?_eq_getElem hi
    obtain ⟨g, hgd⟩ : ∃ g, g = gs[i] := ⟨_, rfl⟩
    rw [← hgd] at hgi
    obtain ⟨g1, g2, g3⟩ := hg g (List.mem_of_getElem? hgi)
    obtain ⟨fs1, p1, p2, p3, p4⟩ := put_spec (ftr (gl L G g).1 (gl L G g).2).1 g.adr fs (by rw [g3]; omega)
    rw [g3] at p3 p4
    obtain ⟨fs', hs, h1, h2, h3, h4, h5⟩ := ih hnd.2 (fun i hi => hlt i (List.mem_cons_of_mem _ hi)) fs1
      (out ++ (ftr (gl L G g).1 (gl L G g).2).2) (by omega)
    have hother : ∀ g' ∈ hs, ∀ q, g.adr ≤ q → q < g.adr + g.n → q < g'.adr ∨ g'.adr + g'.n ≤ q := by
      intro g' hg' q q1 q2
      have : some g' ∈ hs.map some := List.mem_map.mpr ⟨g', hg', rfl⟩
      rw [h2] at this
      obtain ⟨j, hj, hj'⟩ := List.mem_map.mp this
      by_contra hc
      have := hdisj i j g g' q hgi hj' q1 q2 (by omega) (by omega)
      exact hnd.1 (this ▸ hj)
    refine ⟨fs', g :: hs, ?_, by rw [List.map_cons, List.map_cons, hgi, h2], h3, ?_, ?_⟩
    · rw [forceLoop, hgi]
      simp only
      rw [g2]
      simp only
      rw [p1]
      simp only
      rw [h1, List.flatMap_cons, List.append_assoc]
    · intro g' hg' t ht
      rcases List.mem_cons.mp hg' with rfl | hg'
      · rw [h5 _ (fun g'' hg'' => hother g'' hg'' _ (by omega) (by omega))]
        exact p3 t ht
      · exact h4 g' hg' t ht
    · intro q hq
      rw [h5 q (fun g' hg' => hq g' (List.mem_cons_of_mem _ hg'))]
      exact p4 q (hq g List.mem_cons_self)

theorem copyBack_spec {R : Type} (tps : List TP) (fs : List (Option R)) (n : ℕ) (hn : (tps.map TP.adr).Nodup)
    (hlt : ∀ t ∈ tps, t.adr < n) (hlen : tps.length = n) (hfs : fs.length = n) (is : List ℕ) : is.Nodup → (∀ i ∈ is, i < n) →
    ∀ org : List (Option R), org.length = n → ∃ org', copyBack tps fs is org = some org' ∧ org'.length = n ∧
      (∀ i ∈ is, ∀ t, tps[i]? = some t → org'[t.adr]? = fs[i]?) ∧
      ∀ q, (∀ i ∈ is, ∀ t, tps[i]? = some t → t.adr ≠ q) → org'[q]? = org[q]? := by
  induction is with
  | nil => exact fun _ _ org h => ⟨org, rfl, h, by simp, fun _ _ => rfl⟩
  | cons i is ih =>
    intro hnd hr org ho
    rw [List.nodup_cons] at hnd
    have hi := hr i List.mem_cons_self
    have ht : tps[i]? = some (tps[i]'(by omega)) := List.getElem?_eq_getElem (by omega)
    obtain ⟨t, htd⟩ : ∃ t, t = tps[i]'(by omega) := ⟨_, rfl⟩
    rw [← htd] at ht
    have hf : fs[i]? = some (fs[i]'(by omega)) := List.getElem?_eq_getElem (by omega)
    have hlt' := hlt t (List.mem_of_getElem? ht)
    obtain ⟨org', h1, h2, h3, h4⟩ := ih hnd.2 (fun i hi => hr i (List.mem_cons_of_mem _ hi)) (org.set t.adr (fs[i]'(by omega)))
      (by rw [List.length_set]; exact ho)
    have hne : ∀ j ∈ is, ∀ t', tps[j]? = some t' → t'.adr ≠ t.adr := by
      intro j hj t' ht' he
      have e1 : (tps.map TP.adr)[j]? = some t.adr := by rw [List.getElem?_map, ht', Option.map_some, he]
      have e2 : (tps.map TP.adr)[i]? = some t.adr := by rw [List.getElem?_map, ht, Option.map_some]
      have hij : j = i := (List.getElem?_inj (by rw [List.length_map]; have := hr j (List.mem_cons_of_mem _ hj); omega) hn).mp (e1.trans e2.symm)
      exact hnd.1 (hij ▸ hj)
    refine ⟨org', ?_, h2, ?_, ?_⟩
    · rw [copyBack, ht, hf]
      simp only
      rw [if_pos (by omega)]
      exact h1
    · intro j hj t' ht'
      rcases List.mem_cons.mp hj with rfl | hj
      · obtain rfl := Option.some.inj (ht.symm.trans ht')
        rw [h4 _ hne, List.getElem?_set_self (by omega), hf]
      · exact h3 j hj t' ht'
    · intro q hq
      rw [h4 q (fun j hj => hq j (List.mem_cons_of_mem _ hj)),
        List.getElem?_set_ne (hq i List.mem_cons_self t ht)]

theorem map_some_getElem {β γ : Type} {l : List β} {is : List γ} {h : γ → Option β} (e : l.map some = is.map h) {k : ℕ} {b : β} :
    l[k]? = some b ↔ ∃ i, is[k]? = some i ∧ h i = some b := by
  have := congrArg (fun x : List (Option β) => x[k]?) e
  simp only [List.getElem?_map] at this
  constructor
  · intro hb
    rw [hb, Option.map_some] at this
    obtain ⟨i, h1, h2⟩ := Option.map_eq_some_iff.mp this.symm
    exact ⟨i, h1, h2⟩
  · rintro ⟨i, h1, h2⟩
    rw [h1, Option.map_some, h2] at this
    obtain ⟨b', h3, h4⟩ := Option.map_eq_some_iff.mp this
    rw [h3, Option.some.inj h4]

/-- The tree with the particles `T.eps`, which come from the places `sel`. -/
structure From (d : Dinfo) (P : ℕ → List (Ep α)) (T : MTree α) (sel : List (ℕ × ℕ × Idx)) : Prop where
  eps : T.eps.map some = sel.map (copyAt d P)
  nodup : sel.Nodup
  valid : ∀ o ∈ sel, o.1 < d.n ∧ Allowed d.pa o.2.2

theorem group_spec {big : ℝ} {keys keys' : List (BitVec 64)} {d : Dinfo} {P : ℕ → List (Ep α)} {b : ℕ} {T G : MTree α}
    {selL : List ℕ} {sel : List (ℕ × ℕ × Idx)} (hT : Built big keys T) (hG : Built big keys' G)
    (hTe : T.eps.map some = selL.map (fun (i : ℕ) => (P b)[i]?)) (hGe : From d P G sel) (hrT : ∀ e ∈ T.eps, 0 ≤ e.rs)
    (hrG : ∀ e ∈ G.eps, 0 ≤ e.rs) {glimit : ℕ} (hgl : T.limit ≤ glimit) {gs : List Group} (hgs : ipGroups T glimit = some gs) {g : Group}
    (hg : g ∈ gs) (hcomp : ∀ (i a j : ℕ) (k : Idx) (e e' : Ep α), a < d.n → Allowed d.pa k → (P b)[i]? = some e →
      copyAt d P (a, j, k) = some e' → (e.pos - e'.pos).normSq ≤ max (e.rs * e.rs) (e'.rs * e'.rs) → (a, j, k) ∈ sel) :
    ∃ js, groupLists T G g = some (gl T G g) ∧ (gl T G g).1.length = g.n ∧
      Call.Good d P b ⟨(selL.drop g.adr).take g.n, js, (gl T G g).1, (gl T G g).2⟩ := by
  obtain ⟨gs', e1, e2, _, e4⟩ := C73_groups_partition big keys T hT glimit hgl
  obtain rfl := Option.some.inj (e1.symm.trans hgs)
  obtain ⟨c1, c2, c3, _⟩ := e4 g hg
  have hrange : g.adr + g.n ≤ T.eps.length := by
    have h1 := (e2.range.2 g hg).2
    have h2 := hT.good.len
    omega
  obtain ⟨ei, i1, i2⟩ := gather_spec T.eps (List.range' g.adr g.n) (fun a ha => by
    rw [List.mem_range'_1] at ha; omega)
  obtain ⟨l, l1, l2, l3⟩ := C72_interaction_list big keys' G hG ⟨g.vin, g.vout⟩ c3 hrG
  have hlt : ∀ a ∈ l, a < G.eps.length := by
    intro a ha
    obtain ⟨e, he, _⟩ := (l3 a).mp ha
    exact (List.getElem?_eq_some_iff.mp he).1
  obtain ⟨ej, j1, j2⟩ := gather_spec G.eps l hlt
  have hgroup : groupLists T G g = some (ei, ej) := by
    rw [groupLists, i1, l1]
    simp only
    rw [j1]
  have hgl' : gl T G g = (ei, ej) := by rw [gl, hgroup]; rfl
  rw [hgl']
  have hsl : sel.length = G.eps.length := by
    have := congrArg List.length hGe.eps
    simpa using this.symm
  have hsel : ∀ a ∈ l, sel[a]? = some (sel.getD a (0, 0, ⟨0, 0, 0⟩)) := by
    intro a ha
    have := hlt a ha
    rw [List.getElem?_eq_getElem (by omega), List.getD_eq_getElem _ _ (by omega)]
  have hlen : ei.length = g.n := by
    have := congrArg List.length i2
    simpa using this
  have hGeps : ∀ (a : ℕ) (o : ℕ × ℕ × Idx), sel[a]? = some o → G.eps[a]? = copyAt d P o := by
    intro a o ho
    have := congrArg (fun x : List (Option (Ep α)) => x[a]?) hGe.eps
    simp only [List.getElem?_map, ho, Option.map_some] at this
    obtain ⟨x, x1, x2⟩ := Option.map_eq_some_iff.mp this
    rw [x1, x2]
  refine ⟨l.map (fun a => sel.getD a (0, 0, ⟨0, 0, 0⟩)), hgroup, hlen, ?_, ?_, ?_, ?_, ?_⟩
  · show ei.map some = ((selL.drop g.adr).take g.n).map (fun (i : ℕ) => (P b)[i]?)
    rw [i2, List.map_take, List.map_drop, ← hTe]
    apply List.ext_getElem?
    intro k
    rcases Nat.lt_or_ge k g.n with hk | hk
    · rw [List.getElem?_map, List.getElem?_range' hk, Option.map_some, List.getElem?_take_of_lt hk, List.getElem?_drop,
        List.getElem?_map, Nat.one_mul, List.getElem?_eq_getElem (by omega), Option.map_some]
    · rw [List.getElem?_eq_none (by simp; omega), List.getElem?_eq_none (by simp; omega)]
  · show ej.map some = (l.map (fun a => sel.getD a (0, 0, ⟨0, 0, 0⟩))).map (copyAt d P)
    rw [j2, List.map_map]
    apply List.map_congr_left
    intro a ha
    exact hGeps a _ (hsel a ha)
  · apply List.Nodup.map_on _ l2
    intro a ha a' ha' he
    have h1 := hsel a ha
    have h2 := hsel a' ha'
    rw [he] at h1
    exact (List.getElem?_inj (by have := hlt a ha; omega) hGe.nodup).mp (h1.trans h2.symm)
  · intro o ho
    obtain ⟨a, ha, rfl⟩ := List.mem_map.mp ho
    exact hGe.valid _ (List.mem_of_getElem? (hsel a ha))
  · intro i hi a j k e e' ha hk he he' hd
    have hmem := hcomp i a j k e e' ha hk he he' hd
    obtain ⟨q, hq, hq'⟩ := List.mem_iff_getElem.mp hmem
    have hq1 : sel[q]? = some (a, j, k) := by rw [List.getElem?_eq_getElem hq, hq']
    have hGq := hGeps q _ hq1
    rw [he'] at hGq
    obtain ⟨t, ht, ht'⟩ := List.mem_iff_getElem.mp hi
    rw [List.length_take] at ht
    rw [List.getElem_take, List.getElem_drop] at ht'
    have hTq : T.eps[g.adr + t]? = some e := (map_some_getElem hTe).mpr ⟨i, by
      rw [List.getElem?_eq_getElem (by rw [List.length_drop] at ht; omega), ht'], he⟩
    obtain ⟨l', f1, f2⟩ := C72_no_neighbour_missed big big keys keys' T G hT hG hrG hrT glimit hgl gs' e1 g hg (g.adr + t) q e e' hTq hGq
      (by omega) (by omega) (by simpa [le_max_iff] using hd)
    obtain rfl := Option.some.inj (l1.symm.trans f1)
    refine List.mem_map.mpr ⟨q, f2, ?_⟩
    have := hsel q f2
    rw [hq1] at this
    exact (Option.some.inj this).symm

theorem slices_of_tiling {β : Type} (l : List β) {a b : ℕ} {gs : List Group} (h : Tiling a b gs) :
    gs.flatMap (fun g => (l.drop g.adr).take g.n) = (l.drop a).take (b - a) := by
  induction h with
  | nil a => simp
  | cons a b g gs h1 h2 h3 ih =>
    have hle : a + g.n ≤ b := h3.range.1
    rw [List.flatMap_cons, ih, h1, show b - a = g.n + (b - (a + g.n)) by omega, List.take_add, List.drop_drop]

theorem finish_spec {R O : Type} {c : Config} {f : Morton.Frame} {x : RankExec α} {d : Dinfo} {P : ℕ → List (Ep α)} {b : ℕ}
    (ftr : List (Ep α) → List (Ep α) → List R × List O) (hftr : ∀ ei ej, (ftr ei ej).1.length = ei.length) (hx : x.Valid c (P b))
    (hleaf : 1 ≤ c.leaf) (hgroup : c.leaf ≤ c.group) (hnt : 1 ≤ c.nt) {tps : List TP} {T : MTree α} {rs : List (Ep α)}
    {allO : List (ℕ × ℕ × Idx)} (hadr : (tps.map TP.adr).Perm (List.range (P b).length)) (hk : ∀ t ∈ tps, KeyOf f (P b) t)
    (hT : Built c.big (tps.map TP.key) T) (hTe : T.eps.map some = tps.map (fun t => (P b)[t.adr]?)) (hTl : T.limit = c.leaf)
    (hrs : ∀ e ∈ rs, Morton.InRoot f e.pos) (hrad : ∀ e ∈ P b ++ rs, 0 ≤ e.rs)
    (hall : (P b ++ rs).map some = allO.map (copyAt d P)) (hnd : allO.Nodup) (hval : ∀ o ∈ allO, o.1 < d.n ∧ Allowed d.pa o.2.2)
    (hcomp : ∀ (i a j : ℕ) (k : Idx) (e e' : Ep α), a < d.n → Allowed d.pa k → (P b)[i]? = some e →
      copyAt d P (a, j, k) = some e' → (e.pos - e'.pos).normSq ≤ max (e.rs * e.rs) (e'.rs * e'.rs) → (a, j, k) ∈ allO) :
    ∃ forces out, finish c f x ftr (P b) (tps, T) rs = some (forces, out) ∧ Computes d P b ftr forces out := by
  obtain ⟨sorted, G, g1, g2, g3, g4, g5⟩ := globalTree_spec f c.big c.leaf c.nt hleaf hnt (x.sortGlb ((P b).length + rs.length)) x.treeGlb
    hx.treeGlb tps (P b) rs (hx.sortGlb _).1 (hx.sortGlb _).2 hadr hk hrs
  have hlen : allO.length = (P b ++ rs).length := by
    have := congrArg List.length hall
    simpa using this.symm
  obtain ⟨sel, s1, s2⟩ := gather_spec allO (sorted.map TP.adr) (fun a ha => by
    have := List.mem_range.mp (g2.mem_iff.mp ha); omega)
  have hpermsel : sel.Perm allO := by
    have h1 : (sel.map some).Perm (allO.map some) := by
      rw [s2]
      refine (g2.map _).trans ?_
      rw [← hlen]
      apply List.Perm.of_eq
      apply List.ext_getElem (by simp)
      intro i h1 h2
      simp only [List.getElem_map, List.getElem_range]
      rw [List.getElem?_eq_getElem]
    exact (List.map_perm_map_iff (Option.some_injective _)).mp h1
  have hFrom : From d P G sel := by
    refine ⟨?_, hpermsel.nodup_iff.mpr hnd, fun o ho => hval o (hpermsel.mem_iff.mp ho)⟩
    rw [g4]
    rw [List.map_map] at s2
    apply List.ext_getElem?
    intro k
    have e2 := congrArg (fun x : List (Option (ℕ × ℕ × Idx)) => x[k]?) s2
    simp only [List.getElem?_map] at e2 ⊢
    cases hsk : sorted[k]? with
    | none =>
      rw [hsk] at e2
      simp only [Option.map_none, Option.map_eq_none_iff] at e2
      rw [e2]; rfl
    | some t =>
      rw [hsk] at e2
      simp only [Option.map_some, Function.comp] at e2
      obtain ⟨o, o1, o2⟩ := Option.map_eq_some_iff.mp e2
      rw [o1]
      simp only [Option.map_some]
      have e3 := congrArg (fun x : List (Option (Ep α)) => x[t.adr]?) hall
      simp only [List.getElem?_map] at e3
      rw [← o2, Option.map_some] at e3
      obtain ⟨y, y1, y2⟩ := Option.map_eq_some_iff.mp e3
      rw [y1, y2]
  have hrT : ∀ e ∈ T.eps, 0 ≤ e.rs := by
    intro e he
    have : some e ∈ T.eps.map some := List.mem_map.mpr ⟨e, he, rfl⟩
    rw [hTe] at this
    obtain ⟨t, _, ht⟩ := List.mem_map.mp this
    exact hrad e (List.mem_append_left _ (List.mem_of_getElem? ht))
  have hrG : ∀ e ∈ G.eps, 0 ≤ e.rs := by
    intro e he
    have : some e ∈ G.eps.map some := List.mem_map.mpr ⟨e, he, rfl⟩
    rw [g4] at this
    obtain ⟨t, _, ht⟩ := List.mem_map.mp this
    exact hrad e (List.mem_of_getElem? ht)
  have hTe' : T.eps.map some = (tps.map TP.adr).map (fun (i : ℕ) => (P b)[i]?) := by rw [hTe, List.map_map]; rfl
  obtain ⟨gs, q1, q2, q3, _⟩ := C73_groups_partition c.big _ T hT c.group (by omega)
  have htl : tps.length = (P b).length := by
    have := hadr.length_eq
    simpa using this
  rw [List.length_map, htl] at q2 q3
  have hgr : ∀ g ∈ gs, _ := fun g hg => group_spec hT g3 hTe' hFrom hrT hrG (by omega : T.limit ≤ c.group) q1 hg
    (fun i a j k e e' h1 h2 h3 h4 h5 => hpermsel.mem_iff.mpr (hcomp i a j k e e' h1 h2 h3 h4 h5))
  have hord := hx.groups gs.length
  obtain ⟨fs, hs, f1, f2, f3, f4, _⟩ := forceLoop_spec ftr T G gs (P b).length (fun g hg => by
    obtain ⟨js, h1, h2, _⟩ := hgr g hg
    exact ⟨(q2.range.2 g hg).2, h1, by rw [hftr, h2]⟩) (by
    intro k k' g g' q h1 h2 h3 h4 h5 h6
    have hg := List.mem_of_getElem? h1
    have := (q2.range.2 g hg).2
    obtain ⟨k0, g0, _, _, _, hu⟩ := q3 q (by omega)
    exact (hu k g h1 h3 h4).trans (hu k' g' h2 h5 h6).symm) (x.groups gs.length) (hord.nodup_iff.mpr List.nodup_range)
    (fun i hi => List.mem_range.mp (hord.mem_iff.mp hi)) (List.replicate (P b).length none) [] (by simp)
  have hback := hx.back (P b).length
  obtain ⟨org, o1, o2, o3, _⟩ := copyBack_spec tps fs (P b).length (hadr.nodup_iff.mpr List.nodup_range)
    (fun t ht => List.mem_range.mp (hadr.mem_iff.mp (List.mem_map.mpr ⟨t, ht, rfl⟩))) htl f3 (x.back (P b).length)
    (hback.nodup_iff.mpr List.nodup_range) (fun i hi => List.mem_range.mp (hback.mem_iff.mp hi)) (List.replicate (P b).length none) (by simp)
  have hpermhs : hs.Perm gs := by
    have h1 : (hs.map some).Perm (gs.map some) := by
      rw [f2]
      refine (hord.map _).trans ?_
      apply List.Perm.of_eq
      apply List.ext_getElem (by simp)
      intro i h1 h2
      simp only [List.getElem_map, List.getElem_range]
      rw [List.getElem?_eq_getElem]
    exact (List.map_perm_map_iff (Option.some_injective _)).mp h1
  classical
  refine ⟨org, hs.flatMap (fun g => (ftr (gl T G g).1 (gl T G g).2).2), ?_, o2,
    hs.map (fun g => ⟨((tps.map TP.adr).drop g.adr).take g.n, if h : g ∈ gs then (hgr g h).choose else [], (gl T G g).1, (gl T G g).2⟩),
    ?_, ?_, ?_⟩
  · rw [finish]
    simp only
    rw [g1, q1]
    simp only
    rw [f1]
    simp only
    rw [o1]
    simp
  · rw [List.flatMap_map]
    refine (hpermhs.flatMap_right _).trans ?_
    simp only
    rw [slices_of_tiling _ q2, List.drop_zero, Nat.sub_zero, List.take_of_length_le (by rw [List.length_map]; omega)]
    exact hadr
  · intro cl hcl
    obtain ⟨g, hg, rfl⟩ := List.mem_map.mp hcl
    have hg' := hpermhs.mem_iff.mp hg
    obtain ⟨h1, h2, h3⟩ := (hgr g hg').choose_spec
    simp only [dif_pos hg']
    refine ⟨h3, ?_⟩
    have hrg := (q2.range.2 g hg').2
    apply List.ext_getElem?
    intro k
    rcases Nat.lt_or_ge k g.n with hk' | hk'
    · have ht : tps[g.adr + k]? = some (tps[g.adr + k]'(by omega)) := List.getElem?_eq_getElem (by omega)
      rw [List.getElem?_map, List.getElem?_take_of_lt hk', List.getElem?_drop, List.getElem?_map, ht, Option.map_some, Option.map_some,
        o3 (g.adr + k) (hback.mem_iff.mpr (List.mem_range.mpr (by omega))) _ ht, f4 g hg k hk', List.getElem?_map,
        List.getElem?_eq_getElem (by rw [hftr, h2]; exact hk'), Option.map_some]
    · rw [List.getElem?_eq_none (by simp; omega), List.getElem?_eq_none (by rw [List.length_map, hftr, h2]; exact hk')]
  · rw [List.flatMap_map]

/-! An execution: one thread does everything in the order of the loops. -/

def plainSort (nt n : ℕ) : SortExec := ⟨fun _ => ⟨nt, fun _ => 0, fun _ => 0, List.range n, List.range n, fun _ _ => 0⟩, List.replicate n ⟨0, 0⟩⟩

theorem plainSort_static {nt : ℕ} (h : 1 ≤ nt) (n : ℕ) :
    (plainSort nt n).buf.length = n ∧ ∀ l, Radix.Static n nt ((plainSort nt n).s l) := by
  refine ⟨by simp [plainSort], fun l => ⟨rfl, fun _ _ => rfl, fun _ _ => h, fun _ _ _ _ => le_refl _, List.Perm.refl _, List.Perm.refl _, ?_⟩⟩
  exact (List.pairwise_lt_range (n := n)).imp (S := fun i j => ((plainSort nt n).s l).own2 i = ((plainSort nt n).s l).own2 j → i < j)
    (fun h _ => h)

noncomputable def plainTree : TreeExec :=
  ⟨fun l r => List.range' l (r - l), fun l r => List.range' l (r - l), fun _ => 0, fun _ => ⟨0, none, none, 0⟩, fun _ => Mom.init 0⟩

theorem plainTree_valid : plainTree.Valid := ⟨fun _ _ => List.Perm.refl _, fun _ _ => List.Perm.refl _⟩

noncomputable def plainExec (nt : ℕ) (es : List (Ep α)) : RankExec α where
  chunks := [es]
  sortLoc := plainSort nt
  treeLoc := plainTree
  sortGlb := plainSort nt
  treeGlb := plainTree
  srt := List.insertionSort (fun s t => s.key.toNat ≤ t.key.toNat)
  treeSnd := fun _ => plainTree
  groups := List.range
  back := List.range

theorem plainExec_valid {c : Config} (h : 1 ≤ c.nt) (es : List (Ep α)) : (plainExec c.nt es).Valid c es where
  chunks := by simp [plainExec]
  sortLoc := plainSort_static h
  sortGlb := plainSort_static h
  treeLoc := plainTree_valid
  treeGlb := plainTree_valid
  srt l := by
    have : Std.Total (fun s t : TP => s.key.toNat ≤ t.key.toNat) := ⟨fun s t => le_total _ _⟩
    have : IsTrans TP (fun s t : TP => s.key.toNat ≤ t.key.toNat) := ⟨fun s t u => le_trans⟩
    exact ⟨List.perm_insertionSort _ l, List.pairwise_insertionSort _ l⟩
  treeSnd _ := plainTree_valid
  groups _ := List.Perm.refl _
  back _ := List.Perm.refl _

/-- Two ranks in a box that is periodic along one axis; the first particle of rank 0 and the particle of rank 1 are neighbours
over the boundary. -/
noncomputable def twoRanks : Dinfo :=
  ⟨⟨true, false, false⟩, ⟨⟨0, 0, 0⟩, ⟨4, 4, 4⟩⟩, fun r => if r = 0 then ⟨⟨0, 0, 0⟩, ⟨2, 4, 4⟩⟩ else ⟨⟨2, 0, 0⟩, ⟨4, 4, 4⟩⟩, 2⟩

noncomputable def twoLists : ℕ → List (Ep Unit) := fun r => if r = 0 then [⟨⟨0, 1, 1⟩, 2, ()⟩, ⟨⟨1, 1, 1⟩, 0, ()⟩] else [⟨⟨3, 1, 1⟩, 0, ()⟩]

theorem twoRanks_setup : Setup ⟨100, 1, 2, 3⟩ twoRanks twoLists := by
  have hall : ∀ r < twoRanks.n, ∀ e ∈ twoLists r, (r = 0 ∧ (e = ⟨⟨0, 1, 1⟩, 2, ()⟩ ∨ e = ⟨⟨1, 1, 1⟩, 0, ()⟩)) ∨ (r = 1 ∧ e = ⟨⟨3, 1, 1⟩, 0, ()⟩) := by
    intro r hr e he
    simp only [twoRanks] at hr
    by_cases h : r = 0
    · subst h; simpa [twoLists] using he
    · right; exact ⟨by omega, by simpa [twoLists, h] using he⟩
  have hdom : ∀ r < twoRanks.n, (r = 0 ∧ twoRanks.dom r = ⟨⟨0, 0, 0⟩, ⟨2, 4, 4⟩⟩) ∨ (r = 1 ∧ twoRanks.dom r = ⟨⟨2, 0, 0⟩, ⟨4, 4, 4⟩⟩) := by
    intro r hr
    simp only [twoRanks] at hr
    by_cases h : r = 0
    · subst h; left; exact ⟨rfl, by simp [twoRanks]⟩
    · right; exact ⟨by omega, by simp [twoRanks, h]⟩
  have hsx : twoRanks.size.x = 4 := by simp [Dinfo.size, twoRanks]
  refine ⟨?_, ?_, ?_, ?_, ⟨fun _ => by rw [hsx]; norm_num, fun h => (by cases h), fun h => (by cases h)⟩,
    ⟨fun _ => ⟨by norm_num [twoRanks], by norm_num [twoRanks]⟩, fun h => (by cases h), fun h => (by cases h)⟩,
    fun _ _ _ _ => Or.inl (Or.inl rfl), ?_, le_refl _, by norm_num, by norm_num⟩
  · intro r hr e he
    rcases hdom r hr with ⟨h, hd⟩ | ⟨h, hd⟩ <;> rw [hd] <;> rcases hall r hr e he with ⟨h', rfl | rfl⟩ | ⟨h', rfl⟩ <;>
      first | omega | (simp only [Box.MemHalf]; norm_num)
  · intro r hr e he
    rcases hall r hr e he with ⟨_, rfl | rfl⟩ | ⟨_, rfl⟩ <;> norm_num
  · intro r hr
    rcases hdom r hr with ⟨_, hd⟩ | ⟨_, hd⟩ <;> rw [hd] <;> simp only [Box.Proper] <;> norm_num
  · intro r hr p hp
    rcases hdom r hr with ⟨_, hd⟩ | ⟨_, hd⟩ <;> rw [hd] at hp <;> obtain ⟨⟨a1, a2⟩, a3, a4⟩ := hp <;> simp only at a1 a2 a3 a4 <;>
      refine ⟨⟨?_, ?_⟩, ?_, ?_⟩ <;> simp only [twoRanks] <;> first | linarith | exact a3 | exact a4
  · intro _ r hr e he
    rw [hsx]
    rcases hall r hr e he with ⟨_, rfl | rfl⟩ | ⟨_, rfl⟩ <;> norm_num

/-- The ranks of a setup have trees as the exchange needs them. -/
theorem Setup.exists_world {c : Config} {d : Dinfo} {P : ℕ → List (Ep α)} (hS : Setup c d P) :
    ∃ (f : Morton.Frame) (T : ℕ → MTree α) (build : ℕ → List (Ep α) → Option (MTree α)), World d f c.big T ∧
      (∀ r < d.n, Builds f c.big (build r)) ∧ ∀ r < d.n, (T r).eps.Perm (P r) := by
  obtain ⟨_, f, _, h2, h3⟩ := C77_root_cell c.big d.pa d.root d.n P (fun r => [P r]) (fun r hr => by simp)
    (fun r hr e he => ⟨hS.inRoot r hr _ (hS.inDom r hr e he).mem, hS.radius r hr e he⟩) hS.extent hS.spread
  have hloc : ∀ r < d.n, ∃ T : MTree α, (∃ keys, Built c.big keys T) ∧ T.eps.Perm (P r) := by
    intro r hr
    obtain ⟨s, T, _, e2, _, e4, e5, _⟩ := localTree_spec f c.big c.leaf c.nt hS.leaf hS.threads (plainSort c.nt (P r).length) plainTree
      plainTree_valid (P r) (plainSort_static hS.threads _).1 (plainSort_static hS.threads _).2 (h2 r hr)
    exact ⟨T, ⟨_, e4⟩, perm_eps e5 e2⟩
  classical
  obtain ⟨T, hT⟩ : ∃ T : ℕ → MTree α, ∀ r < d.n, (∃ keys, Built c.big keys (T r)) ∧ (T r).eps.Perm (P r) :=
    ⟨fun r => if h : r < d.n then (hloc r h).choose else noTree, fun r hr => by simp only [dif_pos hr]; exact (hloc r hr).choose_spec⟩
  refine ⟨f, T, fun r es => treeA f c.big (plainExec c.nt (P r)).srt plainTree es,
    hS.world (fun r hr => (hT r hr).1) (fun r hr => (hT r hr).2) h2 h3,
    fun r hr => treeA_builds f c.big _ (plainExec_valid hS.threads (P r)).srt (fun _ => plainTree) (fun _ => plainTree_valid),
    fun r hr => (hT r hr).2⟩

end Verif.Force
