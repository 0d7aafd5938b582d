import Verif.Model.Ids
import Verif.Lemmas.Comm
import Verif.Lemmas.Snapshot
/-! C48: ids stay unique.  C49: link maps agree. -/
namespace Verif
open Verif.Ids

/-! ### C48 -/

/-- The ids of all bodies on all ranks. -/
def gids (ranks : List (List Sylinder)) : List ℤ := ranks.flatten.map Sylinder.gid

theorem maxGidLocal_spec (bodies : List Sylinder) (a : ℤ) :
    a ≤ bodies.foldl (fun m s => max m s.gid) a ∧ (∀ s ∈ bodies, s.gid ≤ bodies.foldl (fun m s => max m s.gid) a) ∧
      (bodies.foldl (fun m s => max m s.gid) a = a ∨ ∃ s ∈ bodies, s.gid = bodies.foldl (fun m s => max m s.gid) a) := by
  induction bodies generalizing a with
  | nil => simp
  | cons s bs ih =>
    obtain ⟨h1, h2, h3⟩ := ih (max a s.gid)
    rw [List.foldl_cons]
    refine ⟨le_trans (le_max_left _ _) h1, ?_, ?_⟩
    · intro x hx
      rcases List.mem_cons.1 hx with rfl | hx
      · exact le_trans (le_max_right _ _) h1
      · exact h2 x hx
    · rcases h3 with h3 | ⟨x, hx, h3⟩
      · rcases max_choice a s.gid with h | h
        · left; rw [h3, h]
        · right; exact ⟨s, by simp, by rw [h3, h]⟩
      · exact Or.inr ⟨x, List.mem_cons_of_mem _ hx, h3⟩

theorem foldl_max_spec (l : List ℤ) (a : ℤ) : a ≤ l.foldl max a ∧ (∀ x ∈ l, x ≤ l.foldl max a) ∧ (l.foldl max a = a ∨ l.foldl max a ∈ l) := by
  induction l generalizing a with
  | nil => simp
  | cons s bs ih =>
    obtain ⟨h1, h2, h3⟩ := ih (max a s)
    rw [List.foldl_cons]
    refine ⟨le_trans (le_max_left _ _) h1, ?_, ?_⟩
    · intro x hx
      rcases List.mem_cons.1 hx with rfl | hx
      · exact le_trans (le_max_right _ _) h1
      · exact h2 x hx
    · rcases h3 with h3 | h3
      · rcases max_choice a s with h | h
        · left; rw [h3, h]
        · right; rw [h3, h]; exact List.mem_cons_self
      · exact Or.inr (List.mem_cons_of_mem _ h3)

/-- The greatest id, at least zero. -/
theorem maxGid_spec (ranks : List (List Sylinder)) : 0 ≤ maxGidGlobal ranks ∧ (∀ g ∈ gids ranks, g ≤ maxGidGlobal ranks) ∧
    (maxGidGlobal ranks = 0 ∨ maxGidGlobal ranks ∈ gids ranks) := by
  obtain ⟨h1, h2, h3⟩ := foldl_max_spec (ranks.map maxGidLocal) 0
  refine ⟨h1, ?_, ?_⟩
  · intro g hg
    simp only [gids, List.mem_map, List.mem_flatten] at hg
    obtain ⟨s, ⟨b, hb, hs⟩, rfl⟩ := hg
    exact le_trans ((maxGidLocal_spec b 0).2.1 s hs) (h2 _ (List.mem_map_of_mem hb))
  · rcases h3 with h3 | h3
    · exact Or.inl h3
    · obtain ⟨b, hb, he⟩ := List.mem_map.1 h3
      unfold maxGidGlobal
      rw [← he]
      rcases (maxGidLocal_spec b 0).2.2 with h | ⟨s, hs, h⟩
      · exact Or.inl h
      · right
        unfold maxGidLocal
        rw [← h]
        simp only [gids, List.mem_map, List.mem_flatten]
        exact ⟨s, ⟨b, hb, hs⟩, rfl⟩

theorem displ_spec (counts : List ℕ) (r : ℕ) (h : r ≤ counts.length) : (displ counts)[r]? = some (counts.take r).sum := by
  unfold displ
  have key : ∀ (l : List ℕ) (a r : ℕ), r ≤ l.length → (l.scanl (· + ·) a)[r]? = some (a + (l.take r).sum) := by
    intro l
    induction l with
    | nil => intro a r hr; simp at hr; subst hr; simp
    | cons x l ih =>
      intro a r hr
      cases r with
      | zero => simp
      | succ r =>
        rw [List.scanl_cons, List.getElem?_cons_succ, ih (a + x) r (by simpa using hr)]
        simp [add_assoc]
  simpa using key counts 0 r h

theorem displ_last (counts : List ℕ) : (displ counts).getLastD 0 = counts.sum := by
  have hl : (displ counts).length = counts.length + 1 := by simp [displ]
  have h := displ_spec counts counts.length le_rfl
  rw [List.take_length] at h
  rw [List.getLastD_eq_getLast?, List.getLast?_eq_getElem?, hl, Nat.add_sub_cancel, h]
  rfl

/-- Cutting a list at the partial sums of counts that add up to its length. -/
theorem scatterv_spec (all : List ℤ) (counts : List ℕ) (h : counts.sum = all.length) :
    ∃ ids, scatterv all counts (displ counts) = some ids ∧ ids.map List.length = counts ∧ ids.flatten = all := by
  have hs : scatterv all counts (displ counts) =
      some ((List.range counts.length).map fun r => (all.drop (counts.take r).sum).take (counts[r]?.getD 0)) := by
    unfold scatterv
    apply Comm.mapM_some_of
    intro r hr
    have hr : r < counts.length := by simpa using hr
    rw [List.getElem?_eq_getElem hr, displ_spec counts r hr.le]
    simp only [Option.bind_some, Option.getD_some]
    rw [if_pos]
    have := List.sum_take_add_sum_drop counts r
    rw [List.drop_eq_getElem_cons hr, List.sum_cons] at this
    omega
  refine ⟨_, hs, ?_, ?_⟩
  · clear hs
    apply List.ext_getElem
    · simp
    · intro i h1 h2
      simp only [List.getElem_map, List.getElem_range, List.length_take, List.length_drop]
      rw [List.getElem?_eq_getElem h2, Option.getD_some]
      have := List.sum_take_add_sum_drop counts i
      rw [List.drop_eq_getElem_cons h2, List.sum_cons] at this
      omega
  · clear hs
    have key : ∀ (cs : List ℕ) (l : List ℤ), cs.sum = l.length →
        ((List.range cs.length).map fun r => (l.drop (cs.take r).sum).take (cs[r]?.getD 0)).flatten = l := by
      intro cs
      induction cs with
      | nil => intro l hl; simp at hl; simp [List.eq_nil_of_length_eq_zero hl.symm]
      | cons c cs ih =>
        intro l hl
        rw [List.sum_cons] at hl
        have := ih (l.drop c) (by simp; omega)
        rw [List.length_cons, List.range_succ_eq_map, List.map_cons, List.map_map, List.flatten_cons]
        simp only [List.take_zero, List.sum_nil, List.drop_zero, List.getElem?_cons_zero, Option.getD_some]
        have e : ((fun r => (l.drop ((c :: cs).take r).sum).take ((c :: cs)[r]?.getD 0)) ∘ Nat.succ) =
            fun r => ((l.drop c).drop (cs.take r).sum).take (cs[r]?.getD 0) := by
          funext r
          simp [List.drop_drop]
        rw [e, this, List.take_append_drop]
    exact key counts all h

theorem gids_place (ranks new : List (List Sylinder)) (ids : List (List ℤ)) (h1 : new.length = ranks.length) (h2 : ids.map List.length = new.map List.length) :
    (gids (List.zipWith (fun (b : List Sylinder) (x : List Sylinder × List ℤ) => place b x.1 x.2) ranks (List.zip new ids))).Perm (gids ranks ++ ids.flatten) := by
  induction ranks generalizing new ids with
  | nil =>
    have hn : new = [] := List.eq_nil_of_length_eq_zero h1
    subst hn
    have hi : ids = [] := by simpa using h2
    subst hi
    simp [gids]
  | cons b ranks ih =>
    cases new with
    | nil => simp at h1
    | cons n new =>
      cases ids with
      | nil => simp at h2
      | cons i ids =>
        simp only [List.map_cons, List.cons.injEq] at h2
        have := ih new ids (by simpa using h1) h2.2
        simp only [gids, List.zip_cons_cons, List.zipWith_cons_cons, List.flatten_cons, List.map_append] at this ⊢
        have hp : (place b n i).map Sylinder.gid = b.map Sylinder.gid ++ i := by
          unfold place
          rw [List.map_append]
          congr 1
          have hl := h2.1
          clear this ih h1 h2
          induction n generalizing i with
          | nil => cases i <;> simp_all
          | cons s n ih =>
            cases i with
            | nil => simp at hl
            | cons g i => simpa using ih i (by simpa using hl)
        rw [hp]
        refine List.Perm.trans (List.Perm.append_left _ this) ?_
        rw [List.append_assoc, List.append_assoc]
        refine List.Perm.append_left _ ?_
        rw [← List.append_assoc, ← List.append_assoc]
        exact List.Perm.append_right _ List.perm_append_comm

/-- **C48**, one addition.  With `m` the greatest id of any body on any rank (or zero), the new ids of all ranks together are, in some order,
`m + 1, m + 2, …`, one for each new body; every rank is given as many as it added bodies, and its bodies, in order, carry them;
old bodies are not changed.  So if the ids were different from each other they still are. -/
theorem C48_addition (shuffle : List ℤ → List ℤ) (hsh : ∀ l, (shuffle l).Perm l) (ranks new : List (List Sylinder)) (hlen : new.length = ranks.length)
    (m : ℤ) (hm0 : 0 ≤ m) (hm : ∀ g ∈ gids ranks, g ≤ m) (hm' : m = 0 ∨ m ∈ gids ranks) (hov : m + ((new.map List.length).sum : ℤ) ≤ Output.intMax) :
    ∃ ranks' ids, addNewSylinder shuffle ranks new = some (ranks', ids) ∧ ids.map List.length = new.map List.length ∧
      ids.flatten.Perm ((List.range (new.map List.length).sum).map fun i : ℕ => m + 1 + (i : ℤ)) ∧
      ranks'.length = ranks.length ∧
      (∀ (r : ℕ) (b n : List Sylinder) (i : List ℤ), ranks[r]? = some b → new[r]? = some n → ids[r]? = some i →
        ranks'[r]? = some (b ++ List.zipWith (fun (s : Sylinder) (g : ℤ) => { s with gid := g }) n i)) ∧
      ((gids ranks).Nodup → (gids ranks').Nodup) := by
  have hmax : maxGidGlobal ranks = m := by
    obtain ⟨h1, h2, h3⟩ := maxGid_spec ranks
    apply le_antisymm
    · rcases h3 with h3 | h3
      · rw [h3]; exact hm0
      · exact hm _ h3
    · rcases hm' with h | h
      · rw [h]; exact h1
      · exact h2 _ h
  have hperm := hsh (iota (m + 1) (new.map List.length).sum)
  have hlen2 : (new.map List.length).sum = (shuffle (iota (m + 1) (new.map List.length).sum)).length := by
    rw [hperm.length_eq]
    simp [iota]
  obtain ⟨ids, hs, hil, hif⟩ := scatterv_spec _ _ hlen2
  have hpf : ids.flatten.Perm ((List.range (new.map List.length).sum).map fun i : ℕ => m + 1 + (i : ℤ)) := by
    rw [hif]
    have he : iota (m + 1) (new.map List.length).sum = (List.range (new.map List.length).sum).map fun i : ℕ => m + 1 + (i : ℤ) := by unfold iota; rfl
    rw [← he]
    exact hperm
  have hidl : ids.length = new.length := by
    have := congrArg List.length hil
    simpa using this
  refine ⟨List.zipWith (fun (b : List Sylinder) (x : List Sylinder × List ℤ) => place b x.1 x.2) ranks (List.zip new ids), ids, ?_, hil, hpf, ?_, ?_, ?_⟩
  · unfold addNewSylinder
    simp only
    rw [displ_last, hmax, if_pos (by exact_mod_cast hov), hs]
    rfl
  · simp [hlen, hidl]
  · intro r b n i hb hn hi
    rw [List.getElem?_zipWith, hb]
    have : (new.zip ids)[r]? = some (n, i) := by
      rw [List.getElem?_zip_eq_some]
      exact ⟨hn, hi⟩
    rw [this]
    rfl
  · intro hnd
    rw [(gids_place ranks new ids hlen hil).nodup_iff, List.nodup_append]
    refine ⟨hnd, ?_, ?_⟩
    · rw [hpf.nodup_iff]
      refine List.Nodup.map ?_ List.nodup_range
      intro a b hab
      simp only at hab
      omega
    · intro g hg g' hg' he
      subst he
      rw [hpf.mem_iff] at hg'
      obtain ⟨i, -, hi⟩ := List.mem_map.1 hg'
      have := hm g hg
      omega

/-- **C48**, histories: after any sequence of additions, each with its own shuffle, that ends without overflow, ids that were different from
each other still are, and every rank holds its bodies and all it added. -/
theorem C48_history (ranks : List (List Sylinder)) (hist : List ((List ℤ → List ℤ) × List (List Sylinder))) (hsh : ∀ x ∈ hist, ∀ l, (x.1 l).Perm l)
    (hlen : ∀ x ∈ hist, x.2.length = ranks.length) (ranks' : List (List Sylinder)) (h : additions ranks hist = some ranks') (hnd : (gids ranks).Nodup) :
    (gids ranks').Nodup ∧ ranks'.length = ranks.length ∧ (∀ g ∈ gids ranks, g ∈ gids ranks') ∧
      (gids ranks').length = (gids ranks).length + (hist.map fun x => (x.2.map List.length).sum).sum := by
  induction hist generalizing ranks with
  | nil =>
    simp only [additions, Option.some.injEq] at h
    subst h
    exact ⟨hnd, rfl, fun _ hg => hg, by simp⟩
  | cons x hist ih =>
    obtain ⟨shuffle, new⟩ := x
    simp only [additions] at h
    cases ha : addNewSylinder shuffle ranks new with
    | none => rw [ha] at h; simp at h
    | some r =>
      rw [ha, Option.bind_some] at h
      have hn : new.length = ranks.length := hlen (shuffle, new) (by simp)
      have hov : maxGidGlobal ranks + ((new.map List.length).sum : ℤ) ≤ Output.intMax := by
        unfold addNewSylinder at ha
        simp only at ha
        by_contra hov
        rw [displ_last, if_neg (by exact_mod_cast hov)] at ha
        simp at ha
      obtain ⟨h1, h2, h3⟩ := maxGid_spec ranks
      obtain ⟨r', ids, he, hil, -, hrl, hpl, hnd'⟩ := C48_addition shuffle (hsh (shuffle, new) (by simp)) ranks new hn (maxGidGlobal ranks) h1 h2 h3 hov
      rw [ha] at he
      simp only [Option.some.injEq] at he
      subst he
      obtain ⟨i1, i2, i3, i4⟩ := ih r' (fun x hx => hsh x (List.mem_cons_of_mem _ hx))
        (fun x hx => by rw [hrl]; exact hlen x (List.mem_cons_of_mem _ hx)) h (hnd' hnd)
      have hperm : (gids r').Perm (gids ranks ++ ids.flatten) := by
        have hr' : r' = List.zipWith (fun (b : List Sylinder) (x : List Sylinder × List ℤ) => place b x.1 x.2) ranks (List.zip new ids) := by
          unfold addNewSylinder at ha
          simp only at ha
          rw [displ_last, if_pos (by exact_mod_cast hov), Option.map_eq_some_iff] at ha
          obtain ⟨ids', -, hp⟩ := ha
          simp only [Prod.mk.injEq] at hp
          rw [← hp.1, hp.2]
        rw [hr']
        exact gids_place ranks new ids hn hil
      refine ⟨i1, i2.trans hrl, ?_, ?_⟩
      · intro g hg
        apply i3
        rw [hperm.mem_iff]
        exact List.mem_append_left _ hg
      · rw [i4, hperm.length_eq, List.length_append, List.length_flatten, hil]
        simp [add_assoc]

/-- Two ranks, the second one empty, three new bodies. -/
example : ∃ ranks' ids, addNewSylinder List.reverse [[Sylinder.make 7 1 1 1 1, Sylinder.make 2 1 1 1 1], []]
    [[Sylinder.make 0 1 1 1 1], [Sylinder.make 0 1 1 1 1, Sylinder.make 0 1 1 1 1]] = some (ranks', ids) ∧ (gids ranks').Nodup := by
  obtain ⟨ranks', ids, h, -, -, -, -, hn⟩ := C48_addition List.reverse List.reverse_perm [[Sylinder.make 7 1 1 1 1, Sylinder.make 2 1 1 1 1], []]
    [[Sylinder.make 0 1 1 1 1], [Sylinder.make 0 1 1 1 1, Sylinder.make 0 1 1 1 1]] rfl 7 (by norm_num)
    (by intro g hg; simp [gids, Sylinder.make] at hg; omega) (by right; simp [gids, Sylinder.make]) (by unfold Output.intMax; norm_num)
  exact ⟨ranks', ids, h, hn (by simp [gids, Sylinder.make])⟩

/-! ### C49 -/

/-- How often a link is in a map. -/
def times (l : ℤ × ℤ) (m : List (ℤ × ℤ)) : ℕ := m.count l

theorem times_swap (l : ℤ × ℤ) (m : List (ℤ × ℤ)) : times l.swap (m.map Prod.swap) = times l m := by
  unfold times
  rw [List.count_map_of_injective m Prod.swap Prod.swap_injective]

/-- What holds on every rank after every history: no link is missing from the reverse map, and all ranks have the same maps. -/
theorem linkHistory_same (ranks : List Links) (ops : List LinkOp) (ranks' : List Links) (h : linkHistory ranks ops = some ranks')
    (s0 : Links) (h0 : ∀ s ∈ ranks, s = s0) : ∃ s1, ∀ s ∈ ranks', s = s1 := by
  induction ops generalizing ranks s0 with
  | nil =>
    simp only [linkHistory, Option.some.injEq] at h
    subst h
    exact ⟨s0, h0⟩
  | cons op ops ih =>
    simp only [linkHistory] at h
    cases op with
    | add new =>
      simp only [LinkOp.run, Option.bind_some] at h
      refine ih _ h (s0.emplace new.flatten) ?_
      intro s hs
      obtain ⟨t, ht, rfl⟩ := List.mem_map.1 hs
      rw [h0 t ht]
    | read text =>
      simp only [LinkOp.run, setLinkMapFromFile] at h
      cases hr : Snapshot.readLinks text with
      | none => rw [hr] at h; simp at h
      | some ls =>
        rw [hr] at h
        simp only [Option.map_some, Option.bind_some] at h
        refine ih _ h (({ s0 with map := [] } : Links).emplace ls) ?_
        intro s hs
        obtain ⟨t, ht, rfl⟩ := List.mem_map.1 hs
        rw [h0 t ht]

theorem linkHistory_adds (ranks : List Links) (news : List (List (List (ℤ × ℤ)))) :
    linkHistory ranks (news.map LinkOp.add) = some (ranks.map fun s => s.emplace (news.map List.flatten).flatten) := by
  induction news generalizing ranks with
  | nil => simp [linkHistory, Links.emplace]
  | cons n news ih =>
    simp only [List.map_cons, linkHistory, LinkOp.run, Option.bind_some]
    rw [ih]
    simp [addNewLink, Links.emplace, Function.comp_def, List.append_assoc]

/-- **C49** (partial).  In a history as the program makes it — links read from a file at most once, before any are added — every rank holds,
as a bag, the links of the file and all links added on all ranks, and the reverse map holds `(next, prev)` exactly as often as the
map holds `(prev, next)`.  For every history whatever, all ranks hold the same maps and no link is missing from the reverse map.

Missing: reading after the maps have been filled (`C49_reread_false`), and removal of duplicates (`C49_duplicate_false`). -/
theorem C49_links_partial (P : ℕ) :
    (∀ (text : Text.Str) (ls : List (ℤ × ℤ)) (news : List (List (List (ℤ × ℤ)))), Snapshot.readLinks text = some ls →
      ∃ ranks', linkHistory (List.replicate P {}) (.read text :: news.map LinkOp.add) = some ranks' ∧ ranks'.length = P ∧
        ∀ s ∈ ranks', (∀ l, times l s.map = times l ls + times l (news.map List.flatten).flatten) ∧ ∀ l, times l.swap s.rev = times l s.map) ∧
    (∀ news : List (List (List (ℤ × ℤ))), ∃ ranks', linkHistory (List.replicate P {}) (news.map LinkOp.add) = some ranks' ∧ ranks'.length = P ∧
        ∀ s ∈ ranks', (∀ l, times l s.map = times l (news.map List.flatten).flatten) ∧ ∀ l, times l.swap s.rev = times l s.map) ∧
    ∀ ops ranks', linkHistory (List.replicate P {}) ops = some ranks' →
      (∀ s ∈ ranks', ∀ t ∈ ranks', s = t) ∧ ∀ s ∈ ranks', ∀ l, times l s.map ≤ times l.swap s.rev := by
  refine ⟨?_, ?_, ?_⟩
  · intro text ls news hr
    refine ⟨(List.replicate P (({} : Links).emplace ls)).map fun s => s.emplace (news.map List.flatten).flatten, ?_, ?_, ?_⟩
    · simp only [linkHistory, LinkOp.run, setLinkMapFromFile, hr, Option.map_some, Option.bind_some, List.map_replicate]
      have := linkHistory_adds (List.replicate P (({} : Links).emplace ls)) news
      simpa only [List.map_replicate] using this
    · simp
    · intro s hs
      have hs : s = (({} : Links).emplace ls).emplace (news.map List.flatten).flatten := by
        simp at hs
        exact hs.2
      subst hs
      refine ⟨fun l => by simp [Links.emplace, times, List.count_append], fun l => ?_⟩
      simp only [Links.emplace, List.nil_append]
      rw [← List.map_append]
      exact times_swap _ _
  · intro news
    refine ⟨_, linkHistory_adds _ _, by simp, ?_⟩
    intro s hs
    have hs : s = ({} : Links).emplace (news.map List.flatten).flatten := by
      simp at hs
      exact hs.2
    subst hs
    refine ⟨fun l => by simp [Links.emplace, times], fun l => ?_⟩
    simp only [Links.emplace, List.nil_append]
    exact times_swap _ _
  · intro ops ranks' h
    constructor
    · obtain ⟨s1, h1⟩ := linkHistory_same _ ops ranks' h {} (fun s hs => List.eq_of_mem_replicate hs)
      intro s hs t ht
      rw [h1 s hs, h1 t ht]
    · have key : ∀ (ops : List LinkOp) (ranks : List Links), linkHistory ranks ops = some ranks' →
          (∀ s ∈ ranks, ∀ l, times l s.map ≤ times l.swap s.rev) → ∀ s ∈ ranks', ∀ l, times l s.map ≤ times l.swap s.rev := by
        intro ops
        induction ops with
        | nil =>
          intro ranks h h0
          simp only [linkHistory, Option.some.injEq] at h
          subst h
          exact h0
        | cons op ops ih =>
          intro ranks h h0
          simp only [linkHistory] at h
          cases op with
          | add new =>
            simp only [LinkOp.run, Option.bind_some] at h
            refine ih _ h ?_
            intro s hs l
            obtain ⟨t, ht, rfl⟩ := List.mem_map.1 hs
            have := h0 t ht l
            have h2 := times_swap l new.flatten
            simp only [Links.emplace, times, List.count_append] at this h2 ⊢
            omega
          | read text =>
            simp only [LinkOp.run, setLinkMapFromFile] at h
            cases hr : Snapshot.readLinks text with
            | none => rw [hr] at h; simp at h
            | some ls =>
              rw [hr] at h
              simp only [Option.map_some, Option.bind_some] at h
              refine ih _ h ?_
              intro s hs l
              obtain ⟨t, ht, rfl⟩ := List.mem_map.1 hs
              have h2 := times_swap l ls
              simp only [Links.emplace, times, List.count_append, List.count_nil] at h2 ⊢
              omega
      exact key ops _ h (by
        intro s hs l
        rw [List.eq_of_mem_replicate hs]
        simp [times])

/-- **C49** is false when links are read after the maps have been filled: the link map is cleared, the reverse map is not, and a link that is
no longer there stays in the reverse map. -/
theorem C49_reread_false (text : Text.Str) (htext : Snapshot.readLinks text = some []) :
    ∃ s, linkHistory [{}] [.add [[(1, 2)]], .read text] = some [s] ∧ times (1, 2) s.map = 0 ∧ times (2, 1) s.rev = 1 := by
  refine ⟨⟨[], [(2, 1)]⟩, ?_, rfl, rfl⟩
  simp [linkHistory, LinkOp.run, setLinkMapFromFile, htext, addNewLink, Links.emplace]

/-- **C49** is false for duplicates: a link added twice is stored twice. -/
theorem C49_duplicate_false : ∃ s, linkHistory [{}] [.add [[(1, 2)]], .add [[(1, 2)]]] = some [s] ∧ times (1, 2) s.map = 2 :=
  ⟨⟨[(1, 2), (1, 2)], [(2, 1), (2, 1)]⟩, by simp [linkHistory, LinkOp.run, addNewLink, Links.emplace], rfl⟩

/-- The empty file has no links; a written snapshot has its own. -/
example : Snapshot.readLinks [] = some [] := by simp [Snapshot.readLinks, Text.lines]

example (F : Snapshot.Fmt) (r8 : ℝ → ℝ) (hF : Spec.Snapshot.FmtOk F r8) : Snapshot.readLinks (Snapshot.asciiText F 0 [] [(1, 2)]) = some [(1, 2)] :=
  Snapshot.readLinks_ascii F r8 hF 0 [] [(1, 2)] (by
    intro l hl
    simp at hl
    subst hl
    exact ⟨⟨by norm_num, by norm_num⟩, ⟨by norm_num, by norm_num⟩⟩)

end Verif
