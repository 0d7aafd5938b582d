import Verif.Lemmas.Migrate
import Verif.Props.Domain
/-! C82: `exchangeParticle`. -/
namespace Verif
open Domain Migrate

/-- C82.  If the domains tile the root domain as `decomposeDomain` leaves them and every particle is in the (half-open) root domain, the
exchange ends without a fault, with either way of communication and every order of arrival of the messages; each rank then has
exactly the particles of all ranks that are in its domain. -/
theorem C82_exchange {α : Type} (lim : ℕ) (pos : α → V3) (root : Box) (g : Grid) (hx : 1 ≤ g.nx) (hy : 1 ≤ g.ny) (hz : 1 ≤ g.nz) (dom : ℕ → Box)
    (hd : IsGrid root g dom) (ord ord' : ℕ → List ℕ) (ho : Arrivals g.n ord ord') (P : ℕ → List α) (hP : ∀ r < g.n, ∀ e ∈ P r, Box.MemHalf (pos e) root) :
    ∃ Q, exchange lim pos root g dom ord ord' P = .ok Q ∧ ∀ r < g.n, Q r = (settled pos dom g.n P r).map some := by
  classical
  obtain ⟨S, e, hS⟩ := forRanks_spec (fun r => prepare pos root g dom r (P r)) ⟨[], [], fun _ => 0, fun _ => 0⟩
    (fun r s => Ready pos dom g.n r (P r) s) g.n (fun r hr => prepare_spec pos hd hx hy hz hr (P r) (hP r hr))
  unfold exchange
  rw [e]
  simp only
  refine forRanks_spec _ _ (fun r l => l = (settled pos dom g.n P r).map some) g.n fun r hr => ?_
  set msg : ℕ → List (Option α) := fun a => ((P a).filter (goes pos dom a r)).map some with hmsg
  have hn : ∀ a < g.n, (msg a).length = (S a).nsend r := fun a ha => by rw [(hS a ha).nsend r hr, hmsg, List.length_map]
  have hb : ∀ a < g.n, block (S a).send ((S a).nsendDisp r) ((S a).nsend r) = some (msg a) := fun a ha => (hS a ha).msg r hr
  have hK : ((S r).kept.map some).length = (S r).kept.length := List.length_map _
  have hfin : ∀ D : ℕ → Prop, (∀ a < g.n, a ≠ r → D a) → arrived ((S r).kept.map some) g.n msg D = (settled pos dom g.n P r).map some := by
    intro D hD
    unfold arrived settled
    rw [List.map_append, (hS r hr).kept]
    congr 1
    rw [List.map_flatMap]
    refine flatMap_congr' fun a ha => ?_
    by_cases har : a = r
    · subst har
      have : msg a = [] := by
        rw [hmsg]
        simp only [List.map_eq_nil_iff, List.filter_eq_nil_iff]
        intro e _
        simp [goes]
      rw [this, if_pos rfl]
      simp
    · rw [if_pos (hD a (by simpa using ha) har), if_neg har]
      have hne : r ≠ a := fun h => har h.symm
      simp only [hmsg]
      congr 1
      refine List.filter_congr fun e _ => ?_
      simp [goes, hne]
  refine ⟨_, ?_, rfl⟩
  unfold communicate
  simp only
  rw [if_pos (by simp [kind])]
  rw [← arrived_none _ g.n msg (fun a => (S a).nsend r) hn, ← hK]
  split_ifs with c
  · rw [oneToOne_spec hr S _ msg _ hn (fun a _ => rfl) hb _ _ (fun ib hib => by
      have := (ho r hr).1.mem_iff.mp hib
      rw [List.mem_range'] at this
      obtain ⟨i, h1, h2⟩ := this
      omega)]
    congr 1
    refine hfin _ fun a ha hne => Or.inr ?_
    obtain ⟨ib, h1, h2, h3⟩ := back_surj hr ha hne
    exact ⟨ib, (ho r hr).1.mem_iff.mpr (by rw [List.mem_range']; exact ⟨ib - 1, by omega, by omega⟩), h3⟩
  · rw [allToAllV_spec S _ msg _ hn hb _ _ (fun a ha => by simpa using (ho r hr).2.mem_iff.mp ha)]
    congr 1
    exact hfin _ fun a ha _ => Or.inr ((ho r hr).2.mem_iff.mpr (by simpa using ha))

/-- C82.  In particular nothing is lost or duplicated, and every rank has only particles of its domain. -/
theorem C82_nothing_lost {α : Type} (lim : ℕ) (pos : α → V3) (root : Box) (g : Grid) (hx : 1 ≤ g.nx) (hy : 1 ≤ g.ny) (hz : 1 ≤ g.nz) (dom : ℕ → Box)
    (hd : IsGrid root g dom) (ord ord' : ℕ → List ℕ) (ho : Arrivals g.n ord ord') (P : ℕ → List α) (hP : ∀ r < g.n, ∀ e ∈ P r, Box.MemHalf (pos e) root) :
    ∃ P', exchange lim pos root g dom ord ord' P = .ok P' ∧ ∃ Q : ℕ → List α, (∀ r < g.n, P' r = (Q r).map some) ∧
      (∀ r < g.n, ∀ e ∈ Q r, Box.MemHalf (pos e) (dom r)) ∧ ((List.range g.n).flatMap Q).Perm ((List.range g.n).flatMap P) := by
  classical
  obtain ⟨Q, e, hQ⟩ := C82_exchange lim pos root g hx hy hz dom hd ord ord' ho P hP
  refine ⟨Q, e, settled pos dom g.n P, hQ, ?_, ?_⟩
  · intro r hr x hx'
    unfold settled at hx'
    rw [List.mem_append, List.mem_flatMap] at hx'
    rcases hx' with h | ⟨a, -, h⟩
    · simpa using (List.mem_filter.mp h).2
    · split_ifs at h
      · simp at h
      · simpa using (List.mem_filter.mp h).2
  · -- count of every particle
    rw [List.perm_iff_count]
    intro x
    have hcs : ∀ r < g.n, List.count x (settled pos dom g.n P r) = if Box.MemHalf (pos x) (dom r) then ((List.range g.n).map fun a => List.count x (P a)).sum else 0 := by
      intro r hr
      have hf : ∀ l : List α, List.count x (l.filter fun e => decide (Box.MemHalf (pos e) (dom r))) = if Box.MemHalf (pos x) (dom r) then List.count x l else 0 := by
        intro l
        split_ifs with c
        · exact List.count_filter (by simpa using c)
        · rw [List.count_eq_zero]
          intro hm
          exact c (by simpa using (List.mem_filter.mp hm).2)
      have hsplit : ∀ n, ∀ f : ℕ → ℕ, r < n → f r + ((List.range n).map fun a => if a = r then 0 else f a).sum = ((List.range n).map f).sum := by
        intro n f hrn
        induction n with
        | zero => omega
        | succ n ih =>
          rw [List.range_succ, List.map_append, List.map_append, List.sum_append, List.sum_append]
          simp only [List.map_cons, List.map_nil, List.sum_cons, List.sum_nil, add_zero]
          by_cases hrn' : r = n
          · subst hrn'
            rw [if_pos rfl]
            have : (List.range r).map (fun a => if a = r then 0 else f a) = (List.range r).map f := by
              refine List.map_congr_left fun a ha => ?_
              rw [if_neg (by simp at ha; omega)]
            rw [this]
            omega
          · rw [if_neg (fun h => hrn' h.symm)]
            have := ih (by omega)
            omega
      unfold settled
      rw [List.count_append, hf, List.count_flatMap]
      split_ifs with c
      · rw [← hsplit g.n (fun a => List.count x (P a)) hr]
        congr 2
        refine List.map_congr_left fun a _ => ?_
        simp only [Function.comp]
        split_ifs with h
        · simp
        · rw [hf, if_pos c]
      · rw [zero_add, List.sum_eq_zero]
        intro y hy
        obtain ⟨a, -, rfl⟩ := List.mem_map.mp hy
        simp only [Function.comp]
        split_ifs with h
        · simp
        · rw [hf, if_neg c]
    rw [List.count_flatMap, List.count_flatMap]
    by_cases hm : ∃ r < g.n, x ∈ P r
    · obtain ⟨r, hr, hxr⟩ := hm
      obtain ⟨t, ⟨ht, hxt⟩, huniq⟩ := hd.tiles.2 _ (hP r hr x hxr)
      have : (List.range g.n).map (List.count x ∘ settled pos dom g.n P) =
          (List.range g.n).map fun s => if s = t then ((List.range g.n).map fun a => List.count x (P a)).sum else 0 := by
        refine List.map_congr_left fun s hs => ?_
        have hs' : s < g.n := by simpa using hs
        simp only [Function.comp]
        rw [hcs s hs']
        by_cases hst : s = t
        · subst hst; rw [if_pos hxt, if_pos rfl]
        · rw [if_neg hst, if_neg (fun h => hst (huniq s ⟨hs', h⟩))]
      rw [this]
      have hone : ∀ (n : ℕ) (v : ℕ), t < n → ((List.range n).map fun s => if s = t then v else 0).sum = v := by
        intro n v htn
        induction n with
        | zero => omega
        | succ n ih =>
          rw [List.range_succ, List.map_append, List.sum_append]
          simp only [List.map_cons, List.map_nil, List.sum_cons, List.sum_nil, add_zero]
          by_cases h : t = n
          · subst h
            rw [if_pos rfl, List.sum_eq_zero, zero_add]
            intro y hy
            obtain ⟨a, ha, rfl⟩ := List.mem_map.mp hy
            rw [if_neg (by simp at ha; omega)]
          · rw [if_neg (fun h' => h h'.symm), ih (by omega), add_zero]
      rw [hone g.n _ ht]
      rfl
    · push Not at hm
      have h0 : ((List.range g.n).map fun a => List.count x (P a)).sum = 0 := by
        refine List.sum_eq_zero fun y hy => ?_
        obtain ⟨a, ha, rfl⟩ := List.mem_map.mp hy
        exact List.count_eq_zero.mpr (hm a (by simpa using ha))
      have h1 : ((List.range g.n).map (List.count x ∘ settled pos dom g.n P)).sum = 0 := by
        refine List.sum_eq_zero fun y hy => ?_
        obtain ⟨a, ha, rfl⟩ := List.mem_map.mp hy
        simp only [Function.comp]
        rw [hcs a (by simpa using ha), h0]
        simp
      rw [h1]
      exact h0.symm

/-- Two halves of the unit cube. -/
noncomputable def halves (i : ℕ) : Box := ⟨⟨(i : ℝ) / 2, 0, 0⟩, ⟨((i : ℝ) + 1) / 2, 1, 1⟩⟩

theorem halves_grid : IsGrid unitBox ⟨2, 1, 1⟩ halves := by
  refine ⟨fun i => (i : ℝ) / 2, fun _ j => j, fun _ _ k => k, ⟨by simp [unitBox], by simp [unitBox], ?_⟩, ?_, ?_, ?_⟩
  · intro i _
    push_cast
    linarith
  · intro i _
    refine ⟨by simp [unitBox], by simp [unitBox], ?_⟩
    intro j _
    push_cast
    linarith
  · intro i _ j _
    refine ⟨by simp [unitBox], by simp [unitBox], ?_⟩
    intro j _
    push_cast
    linarith
  · intro i _ j hj k hk
    obtain rfl : j = 0 := by simpa using hj
    obtain rfl : k = 0 := by simpa using hk
    simp [halves]

/-- Both particles are on the wrong rank. -/
example : ∃ Q, exchange 500 id unitBox ⟨2, 1, 1⟩ halves (fun _ => [1]) (fun _ => [1, 0])
      (fun r => if r = 0 then [⟨0.7, 0.5, 0.5⟩] else [⟨0.2, 0.1, 0.5⟩]) = .ok Q ∧ Q 1 = [some (⟨0.7, 0.5, 0.5⟩ : V3)] := by
  obtain ⟨Q, h, hQ⟩ := C82_exchange 500 id unitBox ⟨2, 1, 1⟩ (by simp) le_rfl le_rfl halves halves_grid (fun _ => [1]) (fun _ => [1, 0])
    (fun r _ => ⟨List.Perm.refl _, List.Perm.swap _ _ _⟩) (fun r => if r = 0 then [⟨0.7, 0.5, 0.5⟩] else [⟨0.2, 0.1, 0.5⟩]) (by
      intro r _ e he
      split_ifs at he <;> (simp only [List.mem_singleton] at he; subst he; norm_num [Box.MemHalf, unitBox]))
  refine ⟨Q, h, ?_⟩
  rw [hQ 1 (by simp [Grid.n])]
  unfold settled
  have e1 : Box.MemHalf (⟨0.7, 0.5, 0.5⟩ : V3) (halves 1) := by norm_num [Box.MemHalf, halves]
  have e2 : ¬ Box.MemHalf (⟨0.2, 0.1, 0.5⟩ : V3) (halves 1) := by norm_num [Box.MemHalf, halves]
  have hr : List.range (Grid.n ⟨2, 1, 1⟩) = [0, 1] := rfl
  simp only [hr, one_ne_zero, if_false, List.flatMap_cons, List.flatMap_nil, if_true, zero_ne_one, id, List.filter_cons, e1, e2, decide_true, decide_false,
    List.filter_nil, List.nil_append, List.append_nil, Bool.false_eq_true, List.map_cons, List.map_nil]

/-- C82 is false for a particle on an upper face of the root domain: it passes the check, but the search for its domain runs out of the
array, whatever else there is. -/
theorem C82_upper_face_false {α : Type} (lim : ℕ) (pos : α → V3) (root : Box) (g : Grid) (dom : ℕ → Box) (hd : IsGrid root g dom)
    (ord ord' : ℕ → List ℕ) (P : ℕ → List α) (hP : ∀ r < g.n, ∀ e ∈ P r, Box.Mem (pos e) root) (r : ℕ) (hr : r < g.n) (e : α) (he : e ∈ P r)
    (hf : ¬ Box.MemHalf (pos e) root) : exchange lim pos root g dom ord ord' P = .error .outside := by
  have hin : ∀ e : α, Box.Mem (pos e) root → ¬ Box.MemHalf (pos e) root → ∀ r < g.n, ¬ inDomain (pos e) (dom r) ∧ search g dom (pos e) = none := by
    intro e h1 h2 r hr
    have hface : root.high.x ≤ (pos e).x ∨ root.high.y ≤ (pos e).y ∨ root.high.z ≤ (pos e).z := by
      by_contra h
      push Not at h
      exact h2 ⟨⟨h1.1.1, h.1⟩, ⟨h1.2.1.1, h.2.1⟩, ⟨h1.2.2.1, h.2.2⟩⟩
    refine ⟨?_, search_face hd hface⟩
    rw [inDomain_iff]
    intro h3
    obtain ⟨hp, hm⟩ := hd.tiles.1 r hr
    have hh := hm (dom r).high ⟨⟨hp.1, le_rfl⟩, ⟨hp.2.1, le_rfl⟩, ⟨hp.2.2, le_rfl⟩⟩
    obtain ⟨⟨_, _⟩, ⟨_, _⟩, ⟨_, _⟩⟩ := h3
    obtain ⟨⟨_, _⟩, ⟨_, _⟩, ⟨_, _⟩⟩ := hh
    rcases hface with h | h | h <;> linarith
  have hov : ∀ p, Box.Mem p root → root.overlappedPos p := by
    intro p h
    unfold Box.overlappedPos
    obtain ⟨⟨_, _⟩, ⟨_, _⟩, ⟨_, _⟩⟩ := h
    rintro (h | h | h | h | h | h) <;> linarith
  have hc : ∀ r < g.n, ∀ (l : List α) (ns : ℕ → ℕ), (∀ e ∈ l, Box.Mem (pos e) root) → (∀ f, count pos root g dom r l ns = .error f → f = .outside) ∧
      ((∃ e ∈ l, ¬ Box.MemHalf (pos e) root) → count pos root g dom r l ns = .error .outside) := by
    intro r hr l
    induction l with
    | nil => intro ns _; exact ⟨fun f h => by simp [count] at h, fun ⟨e, h, _⟩ => by simp at h⟩
    | cons x l ih =>
      intro ns hl
      have hx := hl x (by simp)
      rw [count, if_neg (by simpa using hov _ hx)]
      by_cases hh : Box.MemHalf (pos x) root
      · split_ifs with c
        · obtain ⟨i1, i2⟩ := ih ns (fun e he => hl e (by simp [he]))
          refine ⟨i1, fun ⟨e, h1, h2⟩ => i2 ?_⟩
          rcases List.mem_cons.mp h1 with rfl | h1
          · exact absurd hh h2
          · exact ⟨e, h1, h2⟩
        · cases hs : search g dom (pos x) with
          | none => exact ⟨fun f h => by simp at h; exact h.symm, fun _ => rfl⟩
          | some s =>
            obtain ⟨i1, i2⟩ := ih (Function.update ns s (ns s + 1)) (fun e he => hl e (by simp [he]))
            refine ⟨i1, fun ⟨e, h1, h2⟩ => i2 ?_⟩
            rcases List.mem_cons.mp h1 with rfl | h1
            · exact absurd hh h2
            · exact ⟨e, h1, h2⟩
      · obtain ⟨h1, h2⟩ := hin x hx hh r hr
        rw [if_neg h1, h2]
        exact ⟨fun f h => by simp at h; exact h.symm, fun _ => rfl⟩
  obtain ⟨e', h1, rfl⟩ := forRanks_error (fun r => if r < g.n then prepare pos root g dom r (P r) else .error .outside) ⟨[], [], fun _ => 0, fun _ => 0⟩
    (r := r) (fun f => f = .outside)
    (by
      refine ⟨.outside, ?_, rfl⟩
      simp only [hr, if_true]
      unfold prepare
      rw [(hc r hr (P r) _ (hP r hr)).2 ⟨e, he, hf⟩])
    (by
      intro r f h
      split_ifs at h with c
      · unfold prepare at h
        cases h2 : count pos root g dom r (P r) (fun _ => 0) with
        | error f' =>
          rw [h2] at h
          simp only [Except.error.injEq] at h
          subst h
          exact (hc r c (P r) _ (hP r c)).1 _ h2
        | ok ns =>
          rw [h2] at h
          simp only at h
          split at h
          · simp at h; exact h.symm
          · simp at h
      · simp at h; exact h.symm) g.n hr
  unfold exchange
  have hcongr : ∀ n ≤ g.n, forRanks (fun r => prepare pos root g dom r (P r)) (⟨[], [], fun _ => 0, fun _ => 0⟩ : Sent α) n =
      forRanks (fun r => if r < g.n then prepare pos root g dom r (P r) else .error .outside) ⟨[], [], fun _ => 0, fun _ => 0⟩ n := by
    intro n hn
    induction n with
    | zero => rfl
    | succ n ih => rw [forRanks, forRanks, ih (by omega), if_pos (by omega : n < g.n)]
  rw [hcongr g.n le_rfl, h1]

example : exchange 500 id unitBox ⟨2, 1, 1⟩ halves (fun _ => [1]) (fun _ => [1, 0]) (fun _ => [(⟨1, 0.5, 0.5⟩ : V3)]) = .error .outside :=
  C82_upper_face_false 500 id unitBox ⟨2, 1, 1⟩ halves halves_grid _ _ _ (by
    intro r _ e he
    simp only [List.mem_singleton] at he
    subst he
    norm_num [Box.Mem, unitBox]) 0 (by simp [Grid.n]) ⟨1, 0.5, 0.5⟩ (by simp) (by norm_num [Box.MemHalf, unitBox])

end Verif
