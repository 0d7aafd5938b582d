import Verif.Lemmas.LogPool

/-!
C105: the pool of logging threads of the asynchronous logger delivers every message once and shuts down.
-/

namespace Verif

open LogPool LogPool.Spec

/-- Whatever the turns of the threads and whoever is woken, with or without a notification: a state in which no thread can
go on is one in which all calls have returned, the destructor and the workers included.  The queue is empty then, and every
message that was logged has been dealt with once, but for as many as the counter of overruns says. -/
theorem C105_no_deadlock (cap n : ℕ) (clients : List Script) (s : St) (hc : 0 < cap) (hn : 0 < n) (hp : ∀ sc ∈ clients, ∀ e ∈ sc, e.1 ≠ Msg.terminate)
    (h : Reach (init cap n clients) s) (hs : Stuck s) :
    Over s ∧ CircularQ.empty s.q = true ∧ ∃ lost, (s.sunk ++ lost).Perm (messages clients) ∧ lost.length = s.q.overrun := by
  obtain ⟨x, hx, ha, he, hb, -, -, -⟩ := reach_inv hp h
  obtain ⟨ho, hl, hf⟩ := stuck_over hc hn hx ha he hs
  refine ⟨ho, by rw [CircularQ.empty_rep hx.rep, hl]; rfl, (x.gone.filter fun e => !e.2).map Prod.fst, ?_, by simp [hx.lost]⟩
  have ho' := ho
  unfold Over at ho'
  rw [hx.threads] at ho'
  obtain ⟨t1, t2, -⟩ := tot_over ho'
  have h1 := hb.hist
  have h2 := hb.taken
  have h3 := hb.all
  rw [h1, hl, List.append_nil, gone_split, h2, t1, t2, hf, add_zero, add_zero] at h3
  rw [← Multiset.coe_eq_coe, hx.sunk, ← Multiset.coe_add]
  have h4 : (x.sunk : Multiset Msg) + ((x.gone.filter fun e => !e.2).map Prod.fst : List Msg) + n • {Msg.terminate} =
      ((clients.map fun sc => sc.map Prod.fst).flatten : List Msg) + n • {Msg.terminate} := by
    rw [← h3]; abel
  exact add_right_cancel h4

/-- If all clients ask to wait for room, nothing is lost. -/
theorem C105_block (cap n : ℕ) (clients : List Script) (s : St) (hc : 0 < cap) (hn : 0 < n) (hp : ∀ sc ∈ clients, ∀ e ∈ sc, e.1 ≠ Msg.terminate)
    (hb : ∀ sc ∈ clients, ∀ e ∈ sc, e.2 = Policy.block) (h : Reach (init cap n clients) s) :
    s.q.overrun = 0 ∧ (Stuck s → s.sunk.Perm (messages clients)) := by
  obtain ⟨x, hx, -, -, -, -, hpol, -⟩ := reach_inv hp h
  have h0 : s.q.overrun = 0 := by
    rw [hx.lost, List.length_eq_zero_iff, List.filter_eq_nil_iff]
    intro e he
    simp [(hpol hb).2 e he]
  refine ⟨h0, fun hs => ?_⟩
  obtain ⟨-, -, lost, h1, h2⟩ := C105_no_deadlock cap n clients s hc hn hp h hs
  rw [h0, List.length_eq_zero_iff] at h2
  subst h2
  simpa using h1

/-- At no time has a message been dealt with twice, or one that nobody logged; and the queue holds no more than it may. -/
theorem C105_once (cap n : ℕ) (clients : List Script) (s : St) (hp : ∀ sc ∈ clients, ∀ e ∈ sc, e.1 ≠ Msg.terminate)
    (h : Reach (init cap n clients) s) : (∃ rest, (s.sunk ++ rest).Perm (messages clients)) ∧ CircularQ.size s.q ≤ cap := by
  obtain ⟨x, hx, ha, -, hb, -, -, -⟩ := reach_inv hp h
  refine ⟨?_, by rw [CircularQ.size_rep hx.rep]; exact ha.room⟩
  have ht : Msg.terminate ∉ s.sunk := by
    obtain ⟨y, hy, hs⟩ := reach_sim h
    rw [hs.sunk]
    exact inv_of_steps (P := fun x => Msg.terminate ∉ x.sunk) (fun _ _ => sunk_step) (by simp [start]) hy
  have hle : (s.sunk : Multiset Msg) ≤ (messages clients : Multiset Msg) := by
    rw [Multiset.le_iff_count]
    intro m
    by_cases hm : m = .terminate
    · subst hm
      simp [List.count_eq_zero_of_not_mem ht]
    · have h1 := hb.hist
      have h2 := hb.taken
      have h3 := hb.all
      rw [h1, ← Multiset.coe_add, gone_split, h2] at h3
      have h4 := congrArg (Multiset.count m) h3
      have h5 : ∀ k : ℕ, Multiset.count m (k • ({Msg.terminate} : Multiset Msg)) = 0 := fun k => by
        rw [Multiset.nsmul_singleton]; simp [Multiset.count_replicate, Ne.symm hm]
      simp only [Multiset.count_add, h5, ← hx.sunk] at h4
      unfold messages
      omega
  obtain ⟨r, hr⟩ := Multiset.le_iff_exists_add.1 hle
  obtain ⟨r', rfl⟩ := Quot.exists_rep r
  exact ⟨r', by rw [← Multiset.coe_eq_coe, ← Multiset.coe_add, hr]; rfl⟩

/-- A single worker deals with messages in the order in which they were posted.  If all clients wait for room it skips
none, and in the end the messages of every client have come out in its order. -/
theorem C105_order (cap : ℕ) (clients : List Script) (s : St) (hc : 0 < cap) (hp : ∀ sc ∈ clients, ∀ e ∈ sc, e.1 ≠ Msg.terminate)
    (h : Reach (init cap 1 clients) s) :
    s.sunk.Sublist s.posted ∧ ((∀ sc ∈ clients, ∀ e ∈ sc, e.2 = Policy.block) → s.sunk <+: s.posted ∧
      (Stuck s → ∀ sc ∈ clients, (sc.map Prod.fst).Sublist s.sunk)) := by
  obtain ⟨x, hx, ha, he, hb, hord, hpol, hsing⟩ := reach_inv hp h
  have h1 := hb.hist
  have h2 := hsing rfl
  unfold Single at h2
  rw [hx.sunk, hx.posted]
  refine ⟨?_, fun hbl => ?_⟩
  · rw [h1]
    refine List.Sublist.trans ?_ (List.sublist_append_left _ _)
    refine List.Sublist.trans ?_ (List.filter_sublist.map Prod.fst : ((x.gone.filter fun e => e.2).map Prod.fst).Sublist _)
    rw [h2, List.append_assoc]
    exact List.sublist_append_left _ _
  · have hg : (x.gone.filter fun e => e.2) = x.gone := List.filter_eq_self.2 fun e he => (hpol hbl).2 e he
    rw [hg] at h2
    refine ⟨?_, fun hs sc hsc => ?_⟩
    · rw [h1, h2, List.append_assoc, List.append_assoc]
      exact List.prefix_append _ _
    · obtain ⟨ho, hl, hf⟩ := stuck_over hc (by omega) hx ha he hs
      unfold Over at ho
      rw [hx.threads] at ho
      obtain ⟨-, -, t3⟩ := tot_over ho
      rw [h2, hl, t3, hf, List.append_nil, List.append_nil] at h1
      have hmem : Thread.check sc ∈ (start 1 clients).threads := by
        simp [start, hsc]
      obtain ⟨a, b, e⟩ := List.append_of_mem hmem
      unfold Orderly at hord
      rw [e] at hord
      have := List.forall₂_iff_get.1 hord
      obtain ⟨hlen, hget⟩ := this
      obtain ⟨d, e1, e2⟩ := hget a.length (by simp) (by rw [← hlen]; simp)
      have e3 : script (x.threads.get ⟨a.length, by rw [← hlen]; simp⟩) = [] := by
        rcases ho _ (List.get_mem x.threads ⟨a.length, by rw [← hlen]; simp⟩) with h | h <;> rw [h] <;> rfl
      rw [e3] at e1
      simp [script] at e1
      subst e1
      rw [h1] at e2
      have e4 := e2.filter fun m => decide (m ≠ Msg.terminate)
      rw [List.filter_eq_self.2] at e4
      · simp only [List.filter_append] at e4
        simp [List.replicate_succ] at e4
        exact e4.trans List.filter_sublist
      · intro m hm
        obtain ⟨e, he, rfl⟩ := List.mem_map.1 hm
        simpa using hp sc hsc e he

/-- Every run comes to an end: with `w` wakeups that nobody asked for there are at most so many steps. -/
theorem C105_terminates (cap n k w : ℕ) (clients : List Script) (s : St) (h : Run k w (init cap n clients) s) :
    k ≤ 10 * ((messages clients).length + n) + n + clients.length + 2 + w := by
  obtain ⟨x, -, hw⟩ := run_weight h rfl
  rw [weight_start] at hw
  unfold messages
  omega

/-- From wherever the threads are, they can get everything done. -/
theorem C105_completes (cap n : ℕ) (clients : List Script) (s : St) (hc : 0 < cap) (hn : 0 < n) (hp : ∀ sc ∈ clients, ∀ e ∈ sc, e.1 ≠ Msg.terminate)
    (h : Reach (init cap n clients) s) : ∃ s', Relation.ReflTransGen Step s s' ∧ Stuck s' ∧ Over s' := by
  obtain ⟨x, -, hx⟩ := reach_sim h
  obtain ⟨s', hr, hs⟩ := reach_stuck (weight x) hx le_rfl
  exact ⟨s', hr, hs, (C105_no_deadlock cap n clients s' hc hn hp (h.trans (Relation.ReflTransGen.mono (fun _ _ => .inl) _ _ hr)) hs).1⟩

/-- A queue without any room, which the constructor of the pool accepts, makes the destructor wait for ever. -/
theorem C105_zero_false (n : ℕ) (clients : List Script) (s : St) (hn : 0 < n) (hp : ∀ sc ∈ clients, ∀ e ∈ sc, e.1 ≠ Msg.terminate)
    (h : Reach (init 0 n clients) s) : ¬ Over s := by
  intro ho
  obtain ⟨x, hx, hs⟩ := reach_sim h
  have hz := inv_of_steps (P := fun x => Awake 0 n x ∧ ∀ e ∈ x.gone, e.2 = false) (fun _ _ h st => ⟨awake_step h.1 st, zero_step h.1 h.2 st⟩)
    ⟨awake_start 0 n clients, by simp [start]⟩ hx
  have hb := inv_of_steps (fun _ _ => book_step) (book_start n clients) hx
  have ha := hz.1
  unfold Over at ho
  rw [hs.threads] at ho
  have hf : tot nFinished x.threads = n := by
    rw [← ha.workers]
    have : ∀ l : List Thread, (∀ t ∈ l, t = .finished ∨ t = .check []) → tot nFinished l = tot nWorker l := by
      intro l
      induction l with
      | nil => intro _; rfl
      | cons t l ih =>
        intro hl
        have i := ih fun t ht => hl t (by simp [ht])
        rcases hl t (by simp) with rfl | rfl <;> simp [nFinished, nWorker, i]
    exact this _ ho
  have h2 := hb.taken
  have hg : (x.gone.filter fun e => e.2) = [] := List.filter_eq_nil_iff.2 fun e he => by simp [hz.2 e he]
  rw [hg, hf] at h2
  have h3 := congrArg Multiset.card h2
  simp at h3
  omega

/-- With two workers the order may be lost, even of the messages of one client. -/
theorem C105_order_false : ∃ s, Reach (init 2 2 [[(.log 1, .block), (.log 2, .block)]]) s ∧ s.sunk = [.log 2, .log 1] := by
  let q1 : CircularQ.CQ Msg := ⟨3, 0, 1, 0, [.log 1, .log 0, .log 0]⟩
  let q2 : CircularQ.CQ Msg := ⟨3, 0, 2, 0, [.log 1, .log 2, .log 0]⟩
  let q3 : CircularQ.CQ Msg := ⟨3, 1, 2, 0, [.log 1, .log 2, .log 0]⟩
  let q4 : CircularQ.CQ Msg := ⟨3, 2, 2, 0, [.log 1, .log 2, .log 0]⟩
  let p1 : List Msg := [.log 1]
  let p2 : List Msg := [.log 1, .log 2]
  refine ⟨⟨q4, [.want, .want, .check [], .waiting 2], p2, [.log 2, .log 1]⟩, ?_, rfl⟩
  have s0 : Step ⟨CircularQ.new 2, [.want, .want, .check [(.log 1, .block), (.log 2, .block)], .waiting 2], [], []⟩
      ⟨q1, [.want, .want, .pushed [(.log 2, .block)], .waiting 2], p1, []⟩ := .post _ q1 [.want, .want] [.waiting 2] [] [] (.log 1) .block [(.log 2, .block)] (fun _ => rfl) rfl
  have s1 : Step ⟨q1, [.want, .want, .pushed [(.log 2, .block)], .waiting 2], p1, []⟩
      ⟨q1, [.want, .want, .check [(.log 2, .block)], .waiting 2], p1, []⟩ := .notifyPush _ [.want, .want] [.waiting 2] _ p1 [] [(.log 2, .block)] (.nobody _ (by simp [wakeWorker]))
  have s2 : Step ⟨q1, [.want, .want, .check [(.log 2, .block)], .waiting 2], p1, []⟩
      ⟨q2, [.want, .want, .pushed [], .waiting 2], p2, []⟩ := .post _ q2 [.want, .want] [.waiting 2] p1 [] (.log 2) .block [] (fun _ => rfl) rfl
  have s3 : Step ⟨q2, [.want, .want, .pushed [], .waiting 2], p2, []⟩
      ⟨q2, [.want, .want, .check [], .waiting 2], p2, []⟩ := .notifyPush _ [.want, .want] [.waiting 2] _ p2 [] [] (.nobody _ (by simp [wakeWorker]))
  have s4 : Step ⟨q2, [.want, .want, .check [], .waiting 2], p2, []⟩
      ⟨q3, [.popped (.log 1), .want, .check [], .waiting 2], p2, []⟩ := .take q2 q3 [] [.want, .check [], .waiting 2] p2 [] (.log 1) rfl rfl rfl
  have s5 : Step ⟨q3, [.popped (.log 1), .want, .check [], .waiting 2], p2, []⟩
      ⟨q4, [.popped (.log 1), .popped (.log 2), .check [], .waiting 2], p2, []⟩ := .take q3 q4 [.popped (.log 1)] [.check [], .waiting 2] p2 [] (.log 2) rfl rfl rfl
  have s6 : Step ⟨q4, [.popped (.log 1), .popped (.log 2), .check [], .waiting 2], p2, []⟩
      ⟨q4, [.popped (.log 1), .handling (.log 2), .check [], .waiting 2], p2, []⟩ := .notifyPop q4 [.popped (.log 1)] [.check [], .waiting 2] _ p2 [] (.log 2) (.nobody _ (by simp [wakePoster]))
  have s7 : Step ⟨q4, [.popped (.log 1), .handling (.log 2), .check [], .waiting 2], p2, []⟩
      ⟨q4, [.popped (.log 1), .want, .check [], .waiting 2], p2, [.log 2]⟩ := .sink q4 [.popped (.log 1)] [.check [], .waiting 2] p2 [] (.log 2) (by simp)
  have s8 : Step ⟨q4, [.popped (.log 1), .want, .check [], .waiting 2], p2, [.log 2]⟩
      ⟨q4, [.handling (.log 1), .want, .check [], .waiting 2], p2, [.log 2]⟩ := .notifyPop q4 [] [.want, .check [], .waiting 2] _ p2 [.log 2] (.log 1) (.nobody _ (by simp [wakePoster]))
  have s9 : Step ⟨q4, [.handling (.log 1), .want, .check [], .waiting 2], p2, [.log 2]⟩
      ⟨q4, [.want, .want, .check [], .waiting 2], p2, [.log 2, .log 1]⟩ := .sink q4 [] [.want, .check [], .waiting 2] p2 [.log 2] (.log 1) (by simp)
  exact .head (.inl s0) <| .head (.inl s1) <| .head (.inl s2) <| .head (.inl s3) <| .head (.inl s4) <| .head (.inl s5) <| .head (.inl s6) <| .head (.inl s7) <| .head (.inl s8) <| .single (.inl s9)

/-- Two clients, one of which pushes out old messages, two workers and room for one message: the end is reached, and it is as
`C105_no_deadlock` says. -/
example : ∃ s, Reach (init 1 2 [[(.log 1, .block), (.log 2, .block)], [(.flush 3, .overrun)]]) s ∧ Over s ∧
    ∃ lost, (s.sunk ++ lost).Perm [.log 1, .log 2, .flush 3] ∧ lost.length = s.q.overrun := by
  have hp : ∀ sc ∈ [[(Msg.log 1, Policy.block), (.log 2, .block)], [(.flush 3, .overrun)]], ∀ e ∈ sc, e.1 ≠ Msg.terminate := by
    intro sc hs e he; simp at hs; rcases hs with rfl | rfl <;> simp at he <;> (try rcases he with rfl | rfl) <;> simp_all
  obtain ⟨s, h1, h2, h3⟩ := C105_completes 1 2 _ _ (by simp) (by simp) hp .refl
  have hr : Reach (init 1 2 [[(.log 1, .block), (.log 2, .block)], [(.flush 3, .overrun)]]) s := Relation.ReflTransGen.mono (fun _ _ => .inl) _ _ h1
  exact ⟨s, hr, h3, (C105_no_deadlock 1 2 _ s (by simp) (by simp) hp hr h2).2.2⟩

/-- One worker and clients that wait for room. -/
example : ∃ s, Reach (init 1 1 [[(.log 1, .block), (.log 2, .block)], [(.log 3, .block)]]) s ∧ s.sunk.Perm [.log 1, .log 2, .log 3] ∧
    [Msg.log 1, .log 2].Sublist s.sunk ∧ s.sunk <+: s.posted := by
  have hb : ∀ sc ∈ [[(Msg.log 1, Policy.block), (.log 2, .block)], [(.log 3, .block)]], ∀ e ∈ sc, e.2 = Policy.block := by
    intro sc hs e he; simp at hs; rcases hs with rfl | rfl <;> simp at he <;> (try rcases he with rfl | rfl) <;> simp_all
  have hp : ∀ sc ∈ [[(Msg.log 1, Policy.block), (.log 2, .block)], [(.log 3, .block)]], ∀ e ∈ sc, e.1 ≠ Msg.terminate := by
    intro sc hs e he; simp at hs; rcases hs with rfl | rfl <;> simp at he <;> (try rcases he with rfl | rfl) <;> simp_all
  obtain ⟨s, h1, h2, -⟩ := C105_completes 1 1 _ _ (by simp) (by simp) hp .refl
  have hr : Reach (init 1 1 [[(.log 1, .block), (.log 2, .block)], [(.log 3, .block)]]) s := Relation.ReflTransGen.mono (fun _ _ => .inl) _ _ h1
  obtain ⟨o1, o2⟩ := (C105_order 1 _ s (by simp) hp hr).2 hb
  exact ⟨s, hr, (C105_block 1 1 _ s (by simp) (by simp) hp hb hr).2 h2, o2 h2 _ (List.mem_cons_self), o1⟩

/-- The state in which the destructor of a pool without room waits: the worker sleeps, and nobody will wake it. -/
example : ∃ s, Reach (init 0 1 []) s ∧ Stuck s ∧ ¬ Over s := by
  have s0 : Step (init 0 1 []) ⟨CircularQ.new 0, [.want, .check [(.terminate, .block)]], [], []⟩ := .destroy _ [.want] [] [] [] 1 (by simp [Idle])
  have s1 : Step ⟨CircularQ.new 0, [.want, .check [(.terminate, .block)]], [], []⟩ ⟨CircularQ.new 0, [.asleep, .check [(.terminate, .block)]], [], []⟩ :=
    .sleep _ [] [.check [(.terminate, .block)]] [] [] rfl
  have s2 : Step ⟨CircularQ.new 0, [.asleep, .check [(.terminate, .block)]], [], []⟩ ⟨CircularQ.new 0, [.asleep, .blocked [(.terminate, .block)]], [], []⟩ :=
    .wait _ [.asleep] [] [] [] .terminate [] rfl
  have hr : Reach (init 0 1 []) ⟨CircularQ.new 0, [.asleep, .blocked [(.terminate, .block)]], [], []⟩ := .head (.inl s0) <| .head (.inl s1) <| .single (.inl s2)
  exact ⟨_, hr, stuck_of (by simp), C105_zero_false 1 [] _ (by simp) (by simp) hr⟩

/-- A run of a step and a wakeup that nobody asked for. -/
example : ∃ s, Run 1 1 (init 1 1 []) s :=
  ⟨_, .wake (.step (.nil _) (.sleep _ [] [.waiting 1] [] [] rfl)) (.worker _ [] [.waiting 1] [] [])⟩

end Verif
