import Mathlib.Tactic.Abel
import Mathlib.Algebra.Order.Group.Multiset
import Verif.Spec.LogPool
import Verif.Lemmas.CircularQ
import Mathlib.Data.List.Perm.Basic
import Mathlib.Algebra.BigOperators.Group.List.Basic

namespace Verif.LogPool

open CircularQ (CQ Rep)

/-! ### Counting threads -/

/-- A sum over threads. -/
def tot {M : Type} [AddCommMonoid M] (f : Thread → M) (l : List Thread) : M := (l.map f).sum

section
variable {M : Type} [AddCommMonoid M]

@[simp] theorem tot_nil (f : Thread → M) : tot f [] = 0 := rfl
@[simp] theorem tot_cons (f : Thread → M) (t : Thread) (l : List Thread) : tot f (t :: l) = f t + tot f l := by simp [tot]
@[simp] theorem tot_append (f : Thread → M) (a b : List Thread) : tot f (a ++ b) = tot f a + tot f b := by simp [tot]

/-- Waking a thread does not change a sum that does not tell it from a sleeping one. -/
theorem tot_notify {wake : Thread → Option Thread} {f : Thread → M} (hf : ∀ t t', wake t = some t' → f t = f t') {l l' : List Thread} (h : Notify wake l l') :
    tot f l' = tot f l := by
  cases h with
  | one a t t' b e => simp [hf t t' e]
  | nobody l _ => rfl

end

theorem tot_pos {f : Thread → ℕ} {l : List Thread} {t : Thread} (h : t ∈ l) : f t ≤ tot f l := by
  induction l with
  | nil => simp at h
  | cons a l ih =>
    rcases List.mem_cons.1 h with rfl | h
    · simp
    · have := ih h; simp; omega

theorem tot_zero {f : Thread → ℕ} {l : List Thread} (h : ∀ t ∈ l, f t = 0) : tot f l = 0 := by
  induction l with
  | nil => rfl
  | cons t l ih => simp [h t (by simp), ih fun x hx => h x (by simp [hx])]

def nWant : Thread → ℕ
  | .want => 1
  | _ => 0
def nAsleep : Thread → ℕ
  | .asleep => 1
  | _ => 0
def nPushed : Thread → ℕ
  | .pushed _ => 1
  | _ => 0
def nPopped : Thread → ℕ
  | .popped _ => 1
  | _ => 0
def nBlocked : Thread → ℕ
  | .blocked _ => 1
  | _ => 0
def nCheck : Thread → ℕ
  | .check ((_, .block) :: _) => 1
  | _ => 0
def nFinished : Thread → ℕ
  | .finished => 1
  | _ => 0
def nWaiting : Thread → ℕ
  | .waiting _ => 1
  | _ => 0
def nWorker : Thread → ℕ
  | .want | .asleep | .popped _ | .handling _ | .finished => 1
  | _ => 0
/-- Terminate messages that a worker has taken. -/
def nTerm : Thread → ℕ
  | .popped .terminate | .handling .terminate => 1
  | _ => 0

/-- What a thread has still to post. -/
def script : Thread → Script
  | .check sc | .blocked sc | .pushed sc => sc
  | .waiting n => List.replicate n (.terminate, .block)
  | _ => []

/-- Messages that workers have in hand. -/
def hand : Thread → List Msg
  | .popped m | .handling m => [m]
  | _ => []

def nScript (t : Thread) : ℕ := ((script t).map Prod.fst).count .terminate

/-- A bound on the number of steps to come. -/
def cost : Thread → ℕ
  | .want => 1
  | .popped _ => 4
  | .handling _ => 2
  | .check sc => 1 + 10 * sc.length
  | .blocked sc => 10 * sc.length
  | .pushed sc => 3 + 10 * sc.length
  | .waiting n => 2 + 10 * n
  | _ => 0

/-! ### Queues as lists -/

/-- The same with a list for the queue, and a record of what has left it (`true` if a worker took it). -/
structure ASt where
  l : List Msg
  threads : List Thread
  posted : List Msg
  sunk : List Msg
  gone : List (Msg × Bool)

inductive AStep (cap : ℕ) : ASt → ASt → Prop
  | take (m : Msg) (l : List Msg) (a b : List Thread) (posted sunk : List Msg) (g : List (Msg × Bool)) :
      AStep cap ⟨m :: l, a ++ .want :: b, posted, sunk, g⟩ ⟨l, a ++ .popped m :: b, posted, sunk, g ++ [(m, true)]⟩
  | sleep (a b : List Thread) (posted sunk : List Msg) (g : List (Msg × Bool)) :
      AStep cap ⟨[], a ++ .want :: b, posted, sunk, g⟩ ⟨[], a ++ .asleep :: b, posted, sunk, g⟩
  | notifyPop (l : List Msg) (a b ts : List Thread) (posted sunk : List Msg) (g : List (Msg × Bool)) (m : Msg) : Notify wakePoster (a ++ .handling m :: b) ts →
      AStep cap ⟨l, a ++ .popped m :: b, posted, sunk, g⟩ ⟨l, ts, posted, sunk, g⟩
  | sink (l : List Msg) (a b : List Thread) (posted sunk : List Msg) (g : List (Msg × Bool)) (m : Msg) : m ≠ .terminate →
      AStep cap ⟨l, a ++ .handling m :: b, posted, sunk, g⟩ ⟨l, a ++ .want :: b, posted, sunk ++ [m], g⟩
  | stop (l : List Msg) (a b : List Thread) (posted sunk : List Msg) (g : List (Msg × Bool)) :
      AStep cap ⟨l, a ++ .handling .terminate :: b, posted, sunk, g⟩ ⟨l, a ++ .finished :: b, posted, sunk, g⟩
  | post (l : List Msg) (a b : List Thread) (posted sunk : List Msg) (g : List (Msg × Bool)) (m : Msg) (p : Policy) (sc : Script) : l.length < cap →
      AStep cap ⟨l, a ++ .check ((m, p) :: sc) :: b, posted, sunk, g⟩ ⟨l ++ [m], a ++ .pushed sc :: b, posted ++ [m], sunk, g⟩
  | over (l l' : List Msg) (x : Msg) (a b : List Thread) (posted sunk : List Msg) (g : List (Msg × Bool)) (m : Msg) (sc : Script) : l.length = cap →
      l ++ [m] = x :: l' →
      AStep cap ⟨l, a ++ .check ((m, .overrun) :: sc) :: b, posted, sunk, g⟩ ⟨l', a ++ .pushed sc :: b, posted ++ [m], sunk, g ++ [(x, false)]⟩
  | wait (l : List Msg) (a b : List Thread) (posted sunk : List Msg) (g : List (Msg × Bool)) (m : Msg) (sc : Script) : l.length = cap →
      AStep cap ⟨l, a ++ .check ((m, .block) :: sc) :: b, posted, sunk, g⟩ ⟨l, a ++ .blocked ((m, .block) :: sc) :: b, posted, sunk, g⟩
  | notifyPush (l : List Msg) (a b ts : List Thread) (posted sunk : List Msg) (g : List (Msg × Bool)) (sc : Script) : Notify wakeWorker (a ++ .check sc :: b) ts →
      AStep cap ⟨l, a ++ .pushed sc :: b, posted, sunk, g⟩ ⟨l, ts, posted, sunk, g⟩
  | destroy (l : List Msg) (a b : List Thread) (posted sunk : List Msg) (g : List (Msg × Bool)) (n : ℕ) : (∀ t ∈ a ++ b, Idle t) →
      AStep cap ⟨l, a ++ .waiting n :: b, posted, sunk, g⟩ ⟨l, a ++ .check (List.replicate n (.terminate, .block)) :: b, posted, sunk, g⟩
  | wakeW (l : List Msg) (a b : List Thread) (posted sunk : List Msg) (g : List (Msg × Bool)) :
      AStep cap ⟨l, a ++ .asleep :: b, posted, sunk, g⟩ ⟨l, a ++ .want :: b, posted, sunk, g⟩
  | wakeP (l : List Msg) (a b : List Thread) (posted sunk : List Msg) (g : List (Msg × Bool)) (sc : Script) :
      AStep cap ⟨l, a ++ .blocked sc :: b, posted, sunk, g⟩ ⟨l, a ++ .check sc :: b, posted, sunk, g⟩

/-- The list is what the queue holds. -/
structure Sim (cap : ℕ) (s : St) (x : ASt) : Prop where
  rep : Rep s.q x.l
  cap : s.q.maxItems = cap + 1
  threads : s.threads = x.threads
  posted : s.posted = x.posted
  sunk : s.sunk = x.sunk
  lost : s.q.overrun = (x.gone.filter fun e => !e.2).length

/-! ### The number of steps -/

def weight (x : ASt) : ℕ := tot cost x.threads + 5 * x.l.length

theorem cost_notify {wake : Thread → Option Thread} (hf : ∀ t t', wake t = some t' → cost t' = cost t + 1) {l l' : List Thread} (h : Notify wake l l') :
    tot cost l' ≤ tot cost l + 1 := by
  cases h with
  | one a t t' b e => simp [hf t t' e]; omega
  | nobody l _ => omega

theorem cost_wakeWorker : ∀ t t', wakeWorker t = some t' → cost t' = cost t + 1 := by
  intro t t' h; cases t <;> simp [wakeWorker] at h; subst h; rfl

theorem cost_wakePoster : ∀ t t', wakePoster t = some t' → cost t' = cost t + 1 := by
  intro t t' h; cases t <;> simp [wakePoster] at h; subst h; simp [cost]; omega

theorem sim_step {cap : ℕ} {s s' : St} {x : ASt} (h : Sim cap s x) (st : Step s s') : ∃ x', AStep cap x x' ∧ Sim cap s' x' ∧ weight x' + 1 ≤ weight x := by
  obtain ⟨l, ts, po, su, g⟩ := x
  obtain ⟨hr, hc, h1, h2, h3, hl⟩ := h
  simp only at hr h1 h2 h3 hl
  have hroom := hr.room
  cases st with
  | take q q' a b posted sunk m he hf hp =>
    simp only at *
    subst h1 h2 h3
    cases l with
    | nil => rw [CircularQ.empty_rep hr] at he; simp at he
    | cons m' l =>
      rw [CircularQ.front_rep hr] at hf
      cases hf
      obtain ⟨q2, e2, r2, m2, o2⟩ := CircularQ.pop_rep hr
      rw [hp] at e2
      cases e2
      exact ⟨_, .take m l a b _ _ _, ⟨r2, m2.trans hc, rfl, rfl, rfl, by rw [o2, hl]; simp⟩, by simp [weight, cost]; omega⟩
  | sleep q a b posted sunk he =>
    simp only at *
    subst h1 h2 h3
    cases l with
    | nil => exact ⟨_, .sleep a b _ _ _, ⟨hr, hc, rfl, rfl, rfl, hl⟩, by simp [weight, cost]; omega⟩
    | cons m' l => rw [CircularQ.empty_rep hr] at he; simp at he
  | notifyPop q a b l' posted sunk m hn =>
    simp only at *
    subst h1 h2 h3
    exact ⟨_, .notifyPop l a b _ _ _ _ m hn, ⟨hr, hc, rfl, rfl, rfl, hl⟩, by have := cost_notify cost_wakePoster hn; simp [weight, cost] at this ⊢; omega⟩
  | sink q a b posted sunk m hm =>
    simp only at *
    subst h1 h2 h3
    exact ⟨_, .sink l a b _ _ _ m hm, ⟨hr, hc, rfl, rfl, rfl, hl⟩, by simp [weight, cost]; omega⟩
  | stop q a b posted sunk =>
    simp only at *
    subst h1 h2 h3
    exact ⟨_, .stop l a b _ _ _, ⟨hr, hc, rfl, rfl, rfl, hl⟩, by simp [weight, cost]; omega⟩
  | post q q' a b posted sunk m p sc hp hq =>
    simp only at *
    subst h1 h2 h3
    obtain ⟨q2, e2, m2, hh⟩ := CircularQ.push_rep hr m
    rw [hq] at e2
    cases e2
    rcases hh with ⟨c, r2, o2⟩ | ⟨c, r2, o2⟩
    · exact ⟨_, .post l a b _ _ _ m p sc (by omega), ⟨r2, m2.trans hc, rfl, rfl, rfl, by rw [o2, hl]⟩, by simp [weight, cost]; omega⟩
    · have hp' : p = .overrun := by
        cases p with
        | overrun => rfl
        | block =>
          have := hp rfl
          rw [CircularQ.full_rep hr] at this
          simp [c] at this
      subst hp'
      obtain ⟨x, l', e⟩ : ∃ x l', l ++ [m] = x :: l' := by cases l <;> simp
      rw [e] at r2
      exact ⟨_, .over l l' x a b _ _ _ m sc (by omega) e, ⟨r2, m2.trans hc, rfl, rfl, rfl, by rw [o2, hl]; simp⟩, by have := congrArg List.length e; simp [weight, cost] at this ⊢; omega⟩
  | wait q a b posted sunk m sc hf =>
    simp only at *
    subst h1 h2 h3
    rw [CircularQ.full_rep hr] at hf
    simp only [decide_eq_true_eq] at hf
    exact ⟨_, .wait l a b _ _ _ m sc (by omega), ⟨hr, hc, rfl, rfl, rfl, hl⟩, by simp [weight, cost]; omega⟩
  | notifyPush q a b l' posted sunk sc hn =>
    simp only at *
    subst h1 h2 h3
    exact ⟨_, .notifyPush l a b _ _ _ _ sc hn, ⟨hr, hc, rfl, rfl, rfl, hl⟩, by have := cost_notify cost_wakeWorker hn; simp [weight, cost] at this ⊢; omega⟩
  | destroy q a b posted sunk n hi =>
    simp only at *
    subst h1 h2 h3
    exact ⟨_, .destroy l a b _ _ _ n hi, ⟨hr, hc, rfl, rfl, rfl, hl⟩, by simp [weight, cost]; omega⟩

theorem sim_spurious {cap : ℕ} {s s' : St} {x : ASt} (h : Sim cap s x) (st : Spurious s s') : ∃ x', AStep cap x x' ∧ Sim cap s' x' ∧ weight x' ≤ weight x + 1 := by
  obtain ⟨l, ts, po, su, g⟩ := x
  obtain ⟨hr, hc, h1, h2, h3, hl⟩ := h
  simp only at hr h1 h2 h3 hl
  cases st with
  | worker q a b posted sunk =>
    simp only at *
    subst h1 h2 h3
    exact ⟨_, .wakeW l a b _ _ _, ⟨hr, hc, rfl, rfl, rfl, hl⟩, by simp [weight, cost]; omega⟩
  | poster q a b posted sunk sc =>
    simp only at *
    subst h1 h2 h3
    exact ⟨_, .wakeP l a b _ _ _ sc, ⟨hr, hc, rfl, rfl, rfl, hl⟩, by simp [weight, cost]; omega⟩

/-! ### Invariants -/

def nBadBlocked : Thread → ℕ
  | .blocked ((_, .block) :: _) => 0
  | .blocked _ => 1
  | _ => 0
/-- Terminate messages that a client or a destructor that has started has still to post. -/
def nPosting : Thread → ℕ
  | .waiting _ => 0
  | t => nScript t
/-- Other messages. -/
def nOther (t : Thread) : ℕ := (script t).countP fun e => decide (e ≠ (.terminate, .block))

def pend (t : Thread) : Multiset Msg := ((script t).map Prod.fst : List Msg)
def inHand (t : Thread) : Multiset Msg := (hand t : List Msg)

theorem notify_worker {l l' : List Thread} (h : Notify wakeWorker l l') :
    (l' = l ∧ tot nAsleep l = 0) ∨ ∃ a b, l = a ++ .asleep :: b ∧ l' = a ++ .want :: b := by
  cases h with
  | one a t t' b e => right; cases t <;> simp [wakeWorker] at e; subst e; exact ⟨a, b, rfl, rfl⟩
  | nobody l h =>
    left
    refine ⟨rfl, tot_zero fun t ht => ?_⟩
    have := h t ht
    cases t <;> simp [wakeWorker, nAsleep] at *

theorem notify_poster {l l' : List Thread} (h : Notify wakePoster l l') :
    (l' = l ∧ tot nBlocked l = 0) ∨ ∃ a b sc, l = a ++ .blocked sc :: b ∧ l' = a ++ .check sc :: b := by
  cases h with
  | one a t t' b e =>
    right
    cases t with
    | blocked sc => simp only [wakePoster, Option.some.injEq] at e; subst e; exact ⟨a, b, sc, rfl, rfl⟩
    | _ => simp [wakePoster] at e
  | nobody l h =>
    left
    refine ⟨rfl, tot_zero fun t ht => ?_⟩
    have := h t ht
    cases t <;> simp [wakePoster, nBlocked] at *

/-- Nobody sleeps in vain. -/
structure Awake (cap N : ℕ) (x : ASt) : Prop where
  room : x.l.length ≤ cap
  workers : tot nWorker x.threads = N
  bad : tot nBadBlocked x.threads = 0
  push : 0 < tot nAsleep x.threads → x.l.length ≤ tot nWant x.threads + tot nPushed x.threads
  pop : 0 < tot nBlocked x.threads → cap ≤ x.l.length + tot nCheck x.threads + tot nPopped x.threads

theorem bad_blocked (a b : List Thread) (sc : Script) (h : tot nBadBlocked (a ++ .blocked sc :: b) = 0) : ∃ m r, sc = (m, .block) :: r := by
  simp only [tot_append, tot_cons] at h
  match sc with
  | [] => simp [nBadBlocked] at h
  | (m, .block) :: r => exact ⟨m, r, rfl⟩
  | (m, .overrun) :: r => simp [nBadBlocked] at h

theorem awake_step {cap N : ℕ} {x x' : ASt} (h : Awake cap N x) (st : AStep cap x x') : Awake cap N x' := by
  obtain ⟨h1, h2, h3, h4, h5⟩ := h
  cases st with
  | take m l a b posted sunk g =>
    simp [nWorker, nBadBlocked, nAsleep, nWant, nPushed, nBlocked, nCheck, nPopped] at *
    exact ⟨by simp; omega, by simp [nWorker]; omega, by simp [nBadBlocked]; omega, by simp [nAsleep, nWant, nPushed]; omega, by simp [nBlocked, nCheck, nPopped]; omega⟩
  | sleep a b posted sunk g =>
    simp [nWorker, nBadBlocked, nAsleep, nWant, nPushed, nBlocked, nCheck, nPopped] at *
    exact ⟨by simp, by simp [nWorker]; omega, by simp [nBadBlocked]; omega, by simp, by simp [nBlocked, nCheck, nPopped]; omega⟩
  | notifyPop l a b ts posted sunk g m hn =>
    rcases notify_poster hn with ⟨rfl, h0⟩ | ⟨c, d, sc, e, rfl⟩
    · simp [nWorker, nBadBlocked, nAsleep, nWant, nPushed, nBlocked, nCheck, nPopped] at *
      exact ⟨by simpa using h1, by simp [nWorker]; omega, by simp [nBadBlocked]; omega, by simp [nAsleep, nWant, nPushed]; omega, by simp [nBlocked]; omega⟩
    · have f : ∀ f : Thread → ℕ, tot f a + (f (.handling m) + tot f b) = tot f c + (f (.blocked sc) + tot f d) := fun f => by
        have := congrArg (tot f) e; simpa using this
      have hb : tot nBadBlocked (c ++ .blocked sc :: d) = 0 := by
        rw [← e]; simp [nBadBlocked] at h3 ⊢; exact h3
      obtain ⟨m', r, rfl⟩ := bad_blocked _ _ _ hb
      have f1 := f nWorker
      have f2 := f nBadBlocked
      have f3 := f nAsleep
      have f4 := f nWant
      have f5 := f nPushed
      have f6 := f nBlocked
      have f7 := f nCheck
      have f8 := f nPopped
      simp [nWorker, nBadBlocked, nAsleep, nWant, nPushed, nBlocked, nCheck, nPopped] at *
      exact ⟨by simpa using h1, by simp [nWorker]; omega, by simp [nBadBlocked]; omega, by simp [nAsleep, nWant, nPushed]; omega, by simp [nBlocked, nCheck, nPopped]; omega⟩
  | sink l a b posted sunk g m hm =>
    simp [nWorker, nBadBlocked, nAsleep, nWant, nPushed, nBlocked, nCheck, nPopped] at *
    exact ⟨by simpa using h1, by simp [nWorker]; omega, by simp [nBadBlocked]; omega, by simp [nAsleep, nWant, nPushed]; omega, by simp [nBlocked, nCheck, nPopped]; omega⟩
  | stop l a b posted sunk g =>
    simp [nWorker, nBadBlocked, nAsleep, nWant, nPushed, nBlocked, nCheck, nPopped] at *
    exact ⟨by simpa using h1, by simp [nWorker]; omega, by simp [nBadBlocked]; omega, by simp [nAsleep, nWant, nPushed]; omega, by simp [nBlocked, nCheck, nPopped]; omega⟩
  | post l a b posted sunk g m p sc hl =>
    have hc : nCheck (.check ((m, p) :: sc)) ≤ 1 := by cases p <;> simp [nCheck]
    simp [nWorker, nBadBlocked, nAsleep, nWant, nPushed, nBlocked, nPopped] at *
    exact ⟨by simp; omega, by simp [nWorker]; omega, by simp [nBadBlocked]; omega, by simp [nAsleep, nWant, nPushed]; omega, by simp [nBlocked, nCheck, nPopped]; omega⟩
  | over l l' y a b posted sunk g m sc hl e =>
    have hlen : l'.length = l.length := by have := congrArg List.length e; simp at this; omega
    simp [nWorker, nBadBlocked, nAsleep, nWant, nPushed, nBlocked, nPopped, nCheck] at *
    exact ⟨by simp; omega, by simp [nWorker]; omega, by simp [nBadBlocked]; omega, by simp [nAsleep, nWant, nPushed]; omega, by simp [nBlocked, nCheck, nPopped]; omega⟩
  | wait l a b posted sunk g m sc hl =>
    simp [nWorker, nBadBlocked, nAsleep, nWant, nPushed, nBlocked, nPopped, nCheck] at *
    exact ⟨by simp; omega, by simp [nWorker]; omega, by simp [nBadBlocked]; omega, by simp [nAsleep, nWant, nPushed]; omega, by simp [nBlocked, nCheck, nPopped]; omega⟩
  | notifyPush l a b ts posted sunk g sc hn =>
    rcases notify_worker hn with ⟨rfl, h0⟩ | ⟨c, d, e, rfl⟩
    · simp [nWorker, nBadBlocked, nAsleep, nWant, nPushed, nBlocked, nPopped] at *
      exact ⟨by simpa using h1, by simp [nWorker]; omega, by simp [nBadBlocked]; omega, by simp [nAsleep]; omega, by
        simp [nBlocked, nPopped]
        have : nCheck (.pushed sc) = 0 := rfl
        omega⟩
    · have f : ∀ f : Thread → ℕ, tot f a + (f (.check sc) + tot f b) = tot f c + (f .asleep + tot f d) := fun f => by
        have := congrArg (tot f) e; simpa using this
      have f1 := f nWorker
      have f2 := f nBadBlocked
      have f3 := f nAsleep
      have f4 := f nWant
      have f5 := f nPushed
      have f6 := f nBlocked
      have f7 := f nCheck
      have f8 := f nPopped
      have : nCheck (.pushed sc) = 0 := rfl
      have : nCheck .asleep = 0 := rfl
      have : nCheck .want = 0 := rfl
      simp [nWorker, nBadBlocked, nAsleep, nWant, nPushed, nBlocked, nPopped] at *
      exact ⟨by simpa using h1, by simp [nWorker]; omega, by simp [nBadBlocked]; omega, by simp [nAsleep, nWant, nPushed]; omega, by simp [nBlocked, nPopped]; omega⟩
  | destroy l a b posted sunk g n hi =>
    have : nCheck (.waiting n) = 0 := rfl
    simp [nWorker, nBadBlocked, nAsleep, nWant, nPushed, nBlocked, nPopped] at *
    exact ⟨by simpa using h1, by simp [nWorker]; omega, by simp [nBadBlocked]; omega, by simp [nAsleep, nWant, nPushed]; omega, by simp [nBlocked, nPopped]; omega⟩
  | wakeW l a b posted sunk g =>
    simp [nWorker, nBadBlocked, nAsleep, nWant, nPushed, nBlocked, nPopped, nCheck] at *
    exact ⟨by simpa using h1, by simp [nWorker]; omega, by simp [nBadBlocked]; omega, by simp [nAsleep, nWant, nPushed]; omega, by simp [nBlocked, nCheck, nPopped]; omega⟩
  | wakeP l a b posted sunk g sc =>
    obtain ⟨m', r, rfl⟩ := bad_blocked _ _ _ h3
    simp [nWorker, nBadBlocked, nAsleep, nWant, nPushed, nBlocked, nPopped, nCheck] at *
    exact ⟨by simpa using h1, by simp [nWorker]; omega, by simp [nBadBlocked]; omega, by simp [nAsleep, nWant, nPushed]; omega, by simp [nBlocked, nCheck, nPopped]; omega⟩

/-- Where every message is. -/
structure Book (all : Multiset Msg) (x : ASt) : Prop where
  hist : x.posted = x.gone.map Prod.fst ++ x.l
  taken : (((x.gone.filter fun e => e.2).map Prod.fst : List Msg) : Multiset Msg) =
    (x.sunk : Multiset Msg) + tot inHand x.threads + tot nFinished x.threads • {Msg.terminate}
  all : (x.posted : Multiset Msg) + tot pend x.threads = all

theorem pend_wakeWorker : ∀ t t', wakeWorker t = some t' → pend t = pend t' := by
  intro t t' h; cases t <;> simp [wakeWorker] at h; subst h; rfl

theorem pend_wakePoster : ∀ t t', wakePoster t = some t' → pend t = pend t' := by
  intro t t' h; cases t <;> simp [wakePoster] at h; subst h; rfl

theorem inHand_wakeWorker : ∀ t t', wakeWorker t = some t' → inHand t = inHand t' := by
  intro t t' h; cases t <;> simp [wakeWorker] at h; subst h; rfl

theorem inHand_wakePoster : ∀ t t', wakePoster t = some t' → inHand t = inHand t' := by
  intro t t' h; cases t <;> simp [wakePoster] at h; subst h; rfl

theorem nFinished_wakeWorker : ∀ t t', wakeWorker t = some t' → nFinished t = nFinished t' := by
  intro t t' h; cases t <;> simp [wakeWorker] at h; subst h; rfl

theorem nFinished_wakePoster : ∀ t t', wakePoster t = some t' → nFinished t = nFinished t' := by
  intro t t' h; cases t <;> simp [wakePoster] at h; subst h; rfl

theorem coe_snoc (l : List Msg) (m : Msg) : ((l ++ [m] : List Msg) : Multiset Msg) = (l : Multiset Msg) + {m} := by
  rw [← Multiset.coe_add]; rfl

theorem book_step {cap : ℕ} {all : Multiset Msg} {x x' : ASt} (h : Book all x) (st : AStep cap x x') : Book all x' := by
  obtain ⟨h1, h2, h3⟩ := h
  have c0 : ((([] : List Msg)) : Multiset Msg) = 0 := rfl
  have c1 : ∀ m : Msg, (([m] : List Msg) : Multiset Msg) = {m} := fun m => rfl
  have cs := coe_snoc
  cases st with
  | take m l a b posted sunk g =>
    refine ⟨by simp_all, ?_, ?_⟩
    · simp only [tot_append, tot_cons, inHand, hand, nFinished, c0, c1, List.filter_append, List.map_append, zero_add] at h2 ⊢
      simp only [List.filter_cons, List.filter_nil, if_true, List.map_cons, List.map_nil, cs, h2]
      abel
    · simpa [pend, script] using h3
  | sleep a b posted sunk g =>
    exact ⟨h1, by simpa [inHand, hand, nFinished] using h2, by simpa [pend, script] using h3⟩
  | notifyPop l a b ts posted sunk g m hn =>
    have e1 := tot_notify inHand_wakePoster hn
    have e2 := tot_notify pend_wakePoster hn
    have e3 := tot_notify nFinished_wakePoster hn
    exact ⟨h1, by simp only [e1, e3]; simpa [inHand, hand, nFinished] using h2, by simp only [e2]; simpa [pend, script] using h3⟩
  | sink l a b posted sunk g m hm =>
    refine ⟨h1, ?_, by simpa [pend, script] using h3⟩
    simp only [tot_append, tot_cons, inHand, hand, nFinished, c0, c1, zero_add] at h2 ⊢
    rw [h2, cs]
    abel
  | stop l a b posted sunk g =>
    refine ⟨h1, ?_, by simpa [pend, script] using h3⟩
    simp only [tot_append, tot_cons, inHand, hand, nFinished, c0, c1, zero_add] at h2 ⊢
    rw [h2, add_nsmul, add_nsmul, add_nsmul, one_nsmul]
    abel
  | post l a b posted sunk g m p sc hl =>
    refine ⟨by simp_all, by simpa [inHand, hand, nFinished] using h2, ?_⟩
    simp only [tot_append, tot_cons, pend, script, List.map_cons] at h3 ⊢
    rw [← h3, cs, ← Multiset.cons_coe, ← Multiset.singleton_add]
    abel
  | over l l' y a b posted sunk g m sc hl e =>
    refine ⟨?_, ?_, ?_⟩
    · simp only [List.map_append, List.map_cons, List.map_nil, List.append_assoc] at h1 ⊢
      rw [h1, List.append_assoc, e]
      simp
    · simpa [inHand, hand, nFinished] using h2
    · simp only [tot_append, tot_cons, pend, script, List.map_cons] at h3 ⊢
      rw [← h3, cs, ← Multiset.cons_coe, ← Multiset.singleton_add]
      abel
  | wait l a b posted sunk g m sc hl =>
    exact ⟨h1, by simpa [inHand, hand, nFinished] using h2, by simpa [pend, script] using h3⟩
  | notifyPush l a b ts posted sunk g sc hn =>
    have e1 := tot_notify inHand_wakeWorker hn
    have e2 := tot_notify pend_wakeWorker hn
    have e3 := tot_notify nFinished_wakeWorker hn
    exact ⟨h1, by simp only [e1, e3]; simpa [inHand, hand, nFinished] using h2, by simp only [e2]; simpa [pend, script] using h3⟩
  | destroy l a b posted sunk g n hi =>
    exact ⟨h1, by simpa [inHand, hand, nFinished] using h2, by simpa [pend, script] using h3⟩
  | wakeW l a b posted sunk g =>
    exact ⟨h1, by simpa [inHand, hand, nFinished] using h2, by simpa [pend, script] using h3⟩
  | wakeP l a b posted sunk g sc =>
    exact ⟨h1, by simpa [inHand, hand, nFinished] using h2, by simpa [pend, script] using h3⟩

/-- Terminate messages come last, one for each worker. -/
structure End (N : ℕ) (x : ASt) : Prop where
  count : tot nScript x.threads + x.l.count .terminate + tot nTerm x.threads + tot nFinished x.threads = N
  phase : (tot nWaiting x.threads = 1 ∧ tot nPosting x.threads = 0 ∧ tot nTerm x.threads = 0 ∧ tot nFinished x.threads = 0 ∧ .terminate ∉ x.l) ∨
    (tot nWaiting x.threads = 0 ∧ tot nOther x.threads = 0)
  last : ∃ l1 k, x.l = l1 ++ List.replicate k .terminate ∧ .terminate ∉ l1 ∧ (0 < tot nTerm x.threads + tot nFinished x.threads → l1 = [])

/-- What waking does not change. -/
theorem wake_same {ts ts' : List Thread} (h : Notify wakePoster ts ts' ∨ Notify wakeWorker ts ts') :
    tot nScript ts' = tot nScript ts ∧ tot nTerm ts' = tot nTerm ts ∧ tot nFinished ts' = tot nFinished ts ∧ tot nWaiting ts' = tot nWaiting ts ∧
    tot nPosting ts' = tot nPosting ts ∧ tot nOther ts' = tot nOther ts := by
  rcases h with h | h
  · refine ⟨?_, ?_, ?_, ?_, ?_, ?_⟩ <;> refine tot_notify ?_ h <;> intro t t' e <;> cases t <;> simp [wakePoster] at e <;> subst e <;> rfl
  · refine ⟨?_, ?_, ?_, ?_, ?_, ?_⟩ <;> refine tot_notify ?_ h <;> intro t t' e <;> cases t <;> simp [wakeWorker] at e <;> subst e <;> rfl

/-- A step that changes none of the counts keeps the invariant. -/
theorem end_same {N : ℕ} {l : List Msg} {ts ts' : List Thread} {po su po' su' : List Msg} {g g' : List (Msg × Bool)} (h : End N ⟨l, ts, po, su, g⟩)
    (e : tot nScript ts' = tot nScript ts ∧ tot nTerm ts' = tot nTerm ts ∧ tot nFinished ts' = tot nFinished ts ∧ tot nWaiting ts' = tot nWaiting ts ∧
      tot nPosting ts' = tot nPosting ts ∧ tot nOther ts' = tot nOther ts) : End N ⟨l, ts', po', su', g'⟩ := by
  obtain ⟨h1, h2, h3⟩ := h
  obtain ⟨e1, e2, e3, e4, e5, e6⟩ := e
  refine ⟨?_, ?_, ?_⟩
  · simp only [e1, e2, e3]; exact h1
  · simp only [e2, e3, e4, e5, e6]; exact h2
  · simp only [e2, e3]; exact h3

theorem end_step {cap N : ℕ} {x x' : ASt} (h : End N x) (st : AStep cap x x') : End N x' := by
  have hh := h
  obtain ⟨h1, h2, l1, k, h3, h4, h5⟩ := h
  cases st with
  | take m l a b posted sunk g =>
    simp only at h1 h2 h3
    by_cases hm : m = .terminate
    · subst hm
      have : l1 = [] := by
        cases l1 with
        | nil => rfl
        | cons y l1 => simp at h3; simp [← h3.1] at h4
      subst this
      cases k with
      | zero => simp at h3
      | succ k =>
        simp [List.replicate_succ] at h3
        subst h3
        refine ⟨?_, ?_, [], k, by simp, by simp, by simp⟩
        · simp [nScript, script, nTerm, nFinished] at h1 ⊢
          omega
        · rcases h2 with h2 | h2
          · simp at h2
          · right; simpa [nWaiting, nOther, script] using h2
    · have hT : nTerm (.popped m) = 0 := by cases m <;> simp_all [nTerm]
      have hT' : nTerm .want = 0 := rfl
      refine ⟨?_, ?_, ?_⟩
      · simp only [tot_append, tot_cons, hT, hT'] at h1 ⊢
        simp [nScript, script, nFinished, hm] at h1 ⊢
        omega
      · rcases h2 with h2 | h2
        · left
          simp only [tot_append, tot_cons, hT, hT'] at h2 ⊢
          simp [nWaiting, nPosting, nScript, script, nFinished] at h2 ⊢
          tauto
        · right; simpa [nWaiting, nOther, script] using h2
      · cases l1 with
        | nil =>
          cases k with
          | zero => simp at h3
          | succ k => simp [List.replicate_succ] at h3; exact absurd h3.1 hm
        | cons y l1 =>
          simp at h3
          refine ⟨l1, k, h3.2, by simp at h4; tauto, ?_⟩
          simp only [tot_append, tot_cons, hT, hT'] at h5 ⊢
          intro h
          simp [nFinished] at h5 h
          omega
  | sleep a b posted sunk g => exact end_same hh (by simp [nScript, nPosting, nOther, nTerm, nFinished, nWaiting, script])
  | notifyPop l a b ts posted sunk g m hn =>
    obtain ⟨e1, e2, e3, e4, e5, e6⟩ := wake_same (.inl hn)
    refine end_same hh ?_
    rw [e1, e2, e3, e4, e5, e6]
    cases m <;> simp [nScript, nPosting, nOther, nTerm, nFinished, nWaiting, script]
  | sink l a b posted sunk g m hm =>
    refine end_same hh ?_
    cases m <;> simp [nScript, nPosting, nOther, nTerm, nFinished, nWaiting, script] at hm ⊢
  | stop l a b posted sunk g =>
    refine ⟨?_, ?_, l1, k, h3, h4, fun _ => h5 (by simp [nTerm])⟩
    · simp [nScript, script, nTerm, nFinished] at h1 ⊢
      omega
    · rcases h2 with h2 | h2
      · simp [nTerm] at h2
      · right; simpa [nWaiting, nOther, script] using h2
  | post l a b posted sunk g m p sc hl =>
    simp only at h1 h2 h3
    rcases h2 with ⟨i1, i2, i3, i4, i5⟩ | ⟨i1, i2⟩
    · have hm : m ≠ .terminate := by
        rintro rfl
        simp [nPosting, nScript, script] at i2
      refine ⟨?_, .inl ⟨?_, ?_, ?_, ?_, ?_⟩, l ++ [m], 0, by simp, ?_, ?_⟩
      · simp [nScript, script, nTerm, nFinished, hm] at h1 ⊢
        omega
      · simpa [nWaiting] using i1
      · simp [nPosting, nScript, script, hm] at i2 ⊢
        exact i2
      · simpa [nTerm] using i3
      · simpa [nFinished] using i4
      · simp; exact ⟨i5, Ne.symm hm⟩
      · simp; exact ⟨i5, Ne.symm hm⟩
      · simp [nTerm, nFinished] at i3 i4 ⊢
        omega
    · have hm : (m, p) = (.terminate, .block) := by
        by_contra hc
        simp [nOther, script, hc] at i2
      have hm1 : m = .terminate := congrArg Prod.fst hm
      have hm2 : p = .block := congrArg Prod.snd hm
      subst hm1 hm2
      refine ⟨?_, .inr ⟨?_, ?_⟩, l1, k + 1, ?_, h4, ?_⟩
      · simp [nScript, script, nTerm, nFinished] at h1 ⊢
        omega
      · simpa [nWaiting] using i1
      · simpa [nOther, script] using i2
      · simp [h3, List.replicate_succ']
      · intro h
        refine h5 ?_
        simpa [nTerm, nFinished] using h
  | over l l' y a b posted sunk g m sc hl e =>
    simp only at h1 h2 h3
    rcases h2 with ⟨i1, i2, i3, i4, i5⟩ | ⟨i1, i2⟩
    · have hm : m ≠ .terminate := by
        rintro rfl
        simp [nPosting, nScript, script] at i2
      have hl' : .terminate ∉ l' := by
        intro h
        have : Msg.terminate ∈ l ++ [m] := by rw [e]; simp [h]
        simp at this
        rcases this with h | h
        · exact i5 h
        · exact hm h.symm
      refine ⟨?_, .inl ⟨?_, ?_, ?_, ?_, hl'⟩, l', 0, by simp, hl', ?_⟩
      · simp [nScript, script, nTerm, nFinished, hm, List.count_eq_zero_of_not_mem hl', List.count_eq_zero_of_not_mem i5] at h1 ⊢
        omega
      · simpa [nWaiting] using i1
      · simp [nPosting, nScript, script, hm] at i2 ⊢
        exact i2
      · simpa [nTerm] using i3
      · simpa [nFinished] using i4
      · simp [nTerm, nFinished] at i3 i4 ⊢
        omega
    · simp [nOther, script] at i2
  | wait l a b posted sunk g m sc hl => exact end_same hh (by simp [nScript, nPosting, nOther, nTerm, nFinished, nWaiting, script])
  | notifyPush l a b ts posted sunk g sc hn =>
    obtain ⟨e1, e2, e3, e4, e5, e6⟩ := wake_same (.inr hn)
    refine end_same hh ?_
    rw [e1, e2, e3, e4, e5, e6]
    simp [nScript, nPosting, nOther, nTerm, nFinished, nWaiting, script]
  | destroy l a b posted sunk g n hi =>
    simp only at h1 h2 h3
    have z : ∀ f : Thread → ℕ, (∀ t, Idle t → f t = 0) → tot f a + tot f b = 0 := fun f hf => by
      rw [← tot_append]
      exact tot_zero fun t ht => hf t (hi t ht)
    refine ⟨?_, .inr ⟨?_, ?_⟩, l1, k, h3, h4, ?_⟩
    · simpa [nScript, script, nTerm, nFinished] using h1
    · have := z nWaiting (by intro t ht; cases t <;> simp [Idle, nWaiting] at *)
      simpa [nWaiting] using this
    · have := z nOther (by
        intro t ht
        cases t with
        | check sc => cases sc <;> simp [Idle, nOther, script] at *
        | _ => simp [Idle, nOther, script] at *)
      simp [nOther, script, List.countP_replicate] at this ⊢
      exact this
    · intro h
      refine h5 ?_
      simpa [nTerm, nFinished] using h
  | wakeW l a b posted sunk g => exact end_same hh (by simp [nScript, nPosting, nOther, nTerm, nFinished, nWaiting, script])
  | wakeP l a b posted sunk g sc => exact end_same hh (by simp [nScript, nPosting, nOther, nTerm, nFinished, nWaiting, script])

/-! ### A single worker, and posters that never drop anything -/

theorem no_workers {l : List Thread} (h : tot nWorker l = 0) : l.flatMap hand = [] ∧ tot nFinished l = 0 := by
  have z : ∀ t ∈ l, nWorker t = 0 := fun t ht => by have := tot_pos (f := nWorker) ht; omega
  refine ⟨?_, tot_zero fun t ht => ?_⟩
  · rw [List.flatMap_eq_nil_iff]
    intro t ht
    have := z t ht
    cases t <;> simp [nWorker, hand] at *
  · have := z t ht
    cases t <;> simp [nWorker, nFinished] at *

theorem hand_notify {wake : Thread → Option Thread} (hf : ∀ t t', wake t = some t' → hand t = hand t') {l l' : List Thread} (h : Notify wake l l') :
    l'.flatMap hand = l.flatMap hand := by
  cases h with
  | one a t t' b e => simp [hf t t' e]
  | nobody l _ => rfl

theorem hand_wakeWorker : ∀ t t', wakeWorker t = some t' → hand t = hand t' := by
  intro t t' h; cases t <;> simp [wakeWorker] at h; subst h; rfl

theorem hand_wakePoster : ∀ t t', wakePoster t = some t' → hand t = hand t' := by
  intro t t' h; cases t <;> simp [wakePoster] at h; subst h; rfl

/-- The single worker deals with messages in the order in which it takes them. -/
def Single (x : ASt) : Prop :=
  (x.gone.filter fun e => e.2).map Prod.fst = x.sunk ++ x.threads.flatMap hand ++ List.replicate (tot nFinished x.threads) .terminate

theorem single_step {cap : ℕ} {x x' : ASt} (ha : Awake cap 1 x) (h : Single x) (st : AStep cap x x') : Single x' := by
  have hw := ha.workers
  unfold Single at *
  cases st with
  | take m l a b posted sunk g =>
    simp [nWorker] at hw
    have z1 := no_workers (l := a) (by omega)
    have z2 := no_workers (l := b) (by omega)
    simp [hand, nFinished, z1, z2] at h ⊢
    rw [h]
  | sleep a b posted sunk g => simpa [hand, nFinished] using h
  | notifyPop l a b ts posted sunk g m hn =>
    simp only [hand_notify hand_wakePoster hn, tot_notify nFinished_wakePoster hn]
    simpa [hand, nFinished] using h
  | sink l a b posted sunk g m hm =>
    simp [nWorker] at hw
    have z1 := no_workers (l := a) (by omega)
    have z2 := no_workers (l := b) (by omega)
    simp [hand, nFinished, z1, z2] at h ⊢
    rw [h]
  | stop l a b posted sunk g =>
    simp [nWorker] at hw
    have z1 := no_workers (l := a) (by omega)
    have z2 := no_workers (l := b) (by omega)
    simp [hand, nFinished, z1, z2] at h ⊢
    rw [h]
  | post l a b posted sunk g m p sc hl => simpa [hand, nFinished] using h
  | over l l' y a b posted sunk g m sc hl e => simpa [hand, nFinished] using h
  | wait l a b posted sunk g m sc hl => simpa [hand, nFinished] using h
  | notifyPush l a b ts posted sunk g sc hn =>
    simp only [hand_notify hand_wakeWorker hn, tot_notify nFinished_wakeWorker hn]
    simpa [hand, nFinished] using h
  | destroy l a b posted sunk g n hi => simpa [hand, nFinished] using h
  | wakeW l a b posted sunk g => simpa [hand, nFinished] using h
  | wakeP l a b posted sunk g sc => simpa [hand, nFinished] using h

/-- Messages that may push out others. -/
def nOver (t : Thread) : ℕ := (script t).countP fun e => decide (e.2 = .overrun)

def Polite (x : ASt) : Prop := tot nOver x.threads = 0 ∧ ∀ e ∈ x.gone, e.2 = true

theorem nOver_wakeWorker : ∀ t t', wakeWorker t = some t' → nOver t = nOver t' := by
  intro t t' h; cases t <;> simp [wakeWorker] at h; subst h; rfl

theorem nOver_wakePoster : ∀ t t', wakePoster t = some t' → nOver t = nOver t' := by
  intro t t' h; cases t <;> simp [wakePoster] at h; subst h; rfl

theorem polite_step {cap : ℕ} {x x' : ASt} (h : Polite x) (st : AStep cap x x') : Polite x' := by
  obtain ⟨h1, h2⟩ := h
  cases st with
  | take m l a b posted sunk g =>
    refine ⟨by simpa [nOver, script] using h1, ?_⟩
    intro e he
    simp only [List.mem_append, List.mem_singleton] at he
    rcases he with he | rfl
    · exact h2 e he
    · rfl
  | sleep a b posted sunk g => exact ⟨by simpa [nOver, script] using h1, h2⟩
  | notifyPop l a b ts posted sunk g m hn => exact ⟨by simp only [tot_notify nOver_wakePoster hn]; simpa [nOver, script] using h1, h2⟩
  | sink l a b posted sunk g m hm => exact ⟨by simpa [nOver, script] using h1, h2⟩
  | stop l a b posted sunk g => exact ⟨by simpa [nOver, script] using h1, h2⟩
  | post l a b posted sunk g m p sc hl =>
    refine ⟨?_, h2⟩
    simp [nOver, script, List.countP_cons] at h1 ⊢
    tauto
  | over l l' y a b posted sunk g m sc hl e => simp [nOver, script] at h1
  | wait l a b posted sunk g m sc hl => exact ⟨by simpa [nOver, script] using h1, h2⟩
  | notifyPush l a b ts posted sunk g sc hn => exact ⟨by simp only [tot_notify nOver_wakeWorker hn]; simpa [nOver, script] using h1, h2⟩
  | destroy l a b posted sunk g n hi => exact ⟨by simpa [nOver, script] using h1, h2⟩
  | wakeW l a b posted sunk g => exact ⟨by simpa [nOver, script] using h1, h2⟩
  | wakeP l a b posted sunk g sc => exact ⟨by simpa [nOver, script] using h1, h2⟩

/-! ### Every thread posts in order -/

def Along (posted : List Msg) (t0 t : Thread) : Prop := ∃ d, script t0 = d ++ script t ∧ (d.map Prod.fst).Sublist posted

def Orderly (t0 : List Thread) (x : ASt) : Prop := List.Forall₂ (Along x.posted) t0 x.threads

theorem along_same {po : List Msg} {t0 t t' : Thread} (e : script t' = script t) (h : Along po t0 t) : Along po t0 t' := by
  unfold Along at *; rw [e]; exact h

theorem forall2_split {R : Thread → Thread → Prop} {c a b : List Thread} {t : Thread} (h : List.Forall₂ R c (a ++ t :: b)) :
    ∃ c1 t0 c2, c = c1 ++ t0 :: c2 ∧ List.Forall₂ R c1 a ∧ R t0 t ∧ List.Forall₂ R c2 b := by
  induction a generalizing c with
  | nil =>
    cases h with
    | cons h1 h2 => exact ⟨[], _, _, rfl, .nil, h1, h2⟩
  | cons a as ih =>
    cases h with
    | cons h1 h2 =>
      obtain ⟨c1, t0, c2, rfl, i1, i2, i3⟩ := ih h2
      exact ⟨_ :: c1, t0, c2, rfl, .cons h1 i1, i2, i3⟩

theorem forall2_join {R : Thread → Thread → Prop} {c1 c2 a b : List Thread} {t0 t : Thread} (h1 : List.Forall₂ R c1 a) (h : R t0 t) (h2 : List.Forall₂ R c2 b) :
    List.Forall₂ R (c1 ++ t0 :: c2) (a ++ t :: b) := by
  induction h1 with
  | nil => exact .cons h h2
  | cons h1 _ ih => exact .cons h1 ih

theorem forall2_set {R : Thread → Thread → Prop} {c a b : List Thread} {t t' : Thread} (h : List.Forall₂ R c (a ++ t :: b)) (hr : ∀ t0, R t0 t → R t0 t') :
    List.Forall₂ R c (a ++ t' :: b) := by
  obtain ⟨c1, t0, c2, rfl, i1, i2, i3⟩ := forall2_split h
  exact forall2_join i1 (hr _ i2) i3

theorem forall2_notify {wake : Thread → Option Thread} {po : List Msg} {c l l' : List Thread} (hf : ∀ t t', wake t = some t' → script t' = script t)
    (h : Notify wake l l') (hl : List.Forall₂ (Along po) c l) : List.Forall₂ (Along po) c l' := by
  cases h with
  | one a t t' b e => exact forall2_set hl fun _ => along_same (hf t t' e)
  | nobody l _ => exact hl

theorem script_wakeWorker : ∀ t t', wakeWorker t = some t' → script t' = script t := by
  intro t t' h; cases t <;> simp [wakeWorker] at h; subst h; rfl

theorem script_wakePoster : ∀ t t', wakePoster t = some t' → script t' = script t := by
  intro t t' h; cases t <;> simp [wakePoster] at h; subst h; rfl

theorem along_more {po : List Msg} {m : Msg} {t0 t : Thread} (h : Along po t0 t) : Along (po ++ [m]) t0 t := by
  obtain ⟨d, e, s⟩ := h
  exact ⟨d, e, s.trans (List.sublist_append_left _ _)⟩

theorem orderly_post {po : List Msg} {m : Msg} {p : Policy} {sc : Script} {c a b : List Thread} (h : List.Forall₂ (Along po) c (a ++ .check ((m, p) :: sc) :: b)) :
    List.Forall₂ (Along (po ++ [m])) c (a ++ .pushed sc :: b) := by
  obtain ⟨c1, t0, c2, rfl, i1, ⟨d, e, s⟩, i3⟩ := forall2_split h
  refine forall2_join (i1.imp fun _ _ => along_more) ⟨d ++ [(m, p)], ?_, ?_⟩ (i3.imp fun _ _ => along_more)
  · rw [e]; simp [script]
  · simp only [List.map_append, List.map_cons, List.map_nil]
    exact s.append (List.Sublist.refl _)

theorem orderly_step {cap : ℕ} {t0 : List Thread} {x x' : ASt} (h : Orderly t0 x) (st : AStep cap x x') : Orderly t0 x' := by
  unfold Orderly at *
  cases st with
  | take m l a b posted sunk g => exact forall2_set h fun _ => along_same rfl
  | sleep a b posted sunk g => exact forall2_set h fun _ => along_same rfl
  | notifyPop l a b ts posted sunk g m hn => exact forall2_notify script_wakePoster hn (forall2_set h fun _ => along_same rfl)
  | sink l a b posted sunk g m hm => exact forall2_set h fun _ => along_same rfl
  | stop l a b posted sunk g => exact forall2_set h fun _ => along_same rfl
  | post l a b posted sunk g m p sc hl => exact orderly_post h
  | over l l' y a b posted sunk g m sc hl e => exact orderly_post h
  | wait l a b posted sunk g m sc hl => exact forall2_set h fun _ => along_same rfl
  | notifyPush l a b ts posted sunk g sc hn => exact forall2_notify script_wakeWorker hn (forall2_set h fun _ => along_same rfl)
  | destroy l a b posted sunk g n hi => exact forall2_set h fun _ => along_same rfl
  | wakeW l a b posted sunk g => exact forall2_set h fun _ => along_same rfl
  | wakeP l a b posted sunk g sc => exact forall2_set h fun _ => along_same rfl

/-! ### All together -/

def start (n : ℕ) (clients : List Script) : ASt := ⟨[], List.replicate n .want ++ clients.map .check ++ [.waiting n], [], [], []⟩

theorem tot_replicate {M : Type} [AddCommMonoid M] (f : Thread → M) (n : ℕ) (t : Thread) : tot f (List.replicate n t) = n • f t := by
  induction n with
  | zero => simp
  | succ n ih => simp [List.replicate_succ, ih, succ_nsmul']

theorem tot_clients_zero {f : Thread → ℕ} {clients : List Script} (h : ∀ sc ∈ clients, f (.check sc) = 0) : tot f (clients.map .check) = 0 :=
  tot_zero fun t ht => by obtain ⟨sc, hs, rfl⟩ := List.mem_map.1 ht; exact h sc hs

/-- Nobody but the destructor posts terminate messages. -/
def Proper (clients : List Script) : Prop := ∀ sc ∈ clients, ∀ e ∈ sc, e.1 ≠ Msg.terminate

theorem sim_start (cap n : ℕ) (clients : List Script) : Sim cap (init cap n clients) (start n clients) :=
  ⟨CircularQ.rep_new cap, rfl, rfl, rfl, rfl, rfl⟩

theorem awake_start (cap n : ℕ) (clients : List Script) : Awake cap n (start n clients) := by
  refine ⟨by simp [start], ?_, ?_, ?_, ?_⟩ <;> simp only [start, tot_append, tot_replicate, tot_cons, tot_nil]
  · rw [tot_clients_zero (f := nWorker) (fun _ _ => rfl)]; simp [nWorker]
  · rw [tot_clients_zero (f := nBadBlocked) (fun _ _ => rfl)]; simp [nBadBlocked]
  · rw [tot_clients_zero (f := nAsleep) (fun _ _ => rfl)]; simp [nAsleep]
  · rw [tot_clients_zero (f := nBlocked) (fun _ _ => rfl)]; simp [nBlocked]

theorem pend_clients (clients : List Script) : tot pend (clients.map .check) = ((clients.map fun sc => sc.map Prod.fst).flatten : List Msg) := by
  induction clients with
  | nil => rfl
  | cons sc l ih => simp [ih, pend, script]

theorem book_start (n : ℕ) (clients : List Script) :
    Book (((clients.map fun sc => sc.map Prod.fst).flatten : List Msg) + n • {Msg.terminate}) (start n clients) := by
  refine ⟨rfl, ?_, ?_⟩ <;> simp only [start, tot_append, tot_replicate, tot_cons, tot_nil]
  · have h1 : tot inHand (clients.map .check) = 0 := by
      induction clients with
      | nil => rfl
      | cons sc l ih => simp [ih, inHand, hand]
    rw [h1, tot_clients_zero (f := nFinished) (fun _ _ => rfl)]
    simp [inHand, hand, nFinished]
  · rw [pend_clients]
    simp [pend, script, Multiset.nsmul_singleton]
    rw [← Multiset.coe_add, Multiset.coe_replicate]

theorem end_start {n : ℕ} {clients : List Script} (h : Proper clients) : End n (start n clients) := by
  have hs : ∀ sc ∈ clients, nScript (.check sc) = 0 := fun sc hsc => by
    simp only [nScript, script, List.count_eq_zero, List.mem_map, not_exists, not_and]
    exact fun e he => h sc hsc e he
  refine ⟨?_, .inl ⟨?_, ?_, ?_, ?_, by simp [start]⟩, [], 0, by simp [start], by simp, by simp⟩ <;> simp only [start, tot_append, tot_replicate, tot_cons, tot_nil]
  · rw [tot_clients_zero hs, tot_clients_zero (f := nTerm) (fun _ _ => rfl), tot_clients_zero (f := nFinished) (fun _ _ => rfl)]
    simp [nScript, script, nTerm, nFinished]
  · rw [tot_clients_zero (f := nWaiting) (fun _ _ => rfl)]
    simp [nWaiting]
  · rw [tot_clients_zero (f := nPosting) hs]
    simp [nPosting, nScript, script]
  · rw [tot_clients_zero (f := nTerm) (fun _ _ => rfl)]; simp [nTerm]
  · rw [tot_clients_zero (f := nFinished) (fun _ _ => rfl)]; simp [nFinished]

theorem single_start (clients : List Script) : Single (start 1 clients) := by
  have h1 : (clients.map Thread.check).flatMap hand = [] := by
    rw [List.flatMap_eq_nil_iff]
    intro t ht
    obtain ⟨sc, _, rfl⟩ := List.mem_map.1 ht
    rfl
  unfold Single
  simp only [start, tot_append, tot_replicate, tot_cons, tot_nil, List.flatMap_append, h1]
  rw [tot_clients_zero (f := nFinished) (fun _ _ => rfl)]
  simp [nFinished, hand]

theorem polite_start {n : ℕ} {clients : List Script} (h : ∀ sc ∈ clients, ∀ e ∈ sc, e.2 = Policy.block) : Polite (start n clients) := by
  refine ⟨?_, by simp [start]⟩
  simp only [start, tot_append, tot_replicate, tot_cons, tot_nil]
  rw [tot_clients_zero (f := nOver)]
  · simp [nOver, script, List.countP_replicate]
  · intro sc hsc
    simp only [nOver, script, List.countP_eq_zero, decide_eq_true_eq]
    intro e he
    rw [h sc hsc e he]
    simp

theorem orderly_start (n : ℕ) (clients : List Script) : Orderly (start n clients).threads (start n clients) := by
  unfold Orderly
  exact List.forall₂_same.2 fun t _ => ⟨[], rfl, by simp⟩

theorem weight_start (n : ℕ) (clients : List Script) :
    weight (start n clients) = 10 * ((clients.map fun sc => sc.map Prod.fst).flatten.length + n) + n + clients.length + 2 := by
  have h : tot cost (clients.map .check) = 10 * (clients.map fun sc => sc.map Prod.fst).flatten.length + clients.length := by
    induction clients with
    | nil => rfl
    | cons sc l ih => simp only [List.map_cons, tot_cons, ih, cost, List.flatten_cons, List.length_append, List.length_map, List.length_cons]; omega
  simp only [weight, start, tot_append, tot_replicate, tot_cons, tot_nil, h, List.length_nil, cost]
  have : n • (1 : ℕ) = n := by simp
  omega

/-- A simulation of runs. -/
theorem reach_sim {cap n : ℕ} {clients : List Script} {s : St} (h : Reach (init cap n clients) s) :
    ∃ x, Relation.ReflTransGen (AStep cap) (start n clients) x ∧ Sim cap s x := by
  induction h with
  | refl => exact ⟨_, .refl, sim_start cap n clients⟩
  | tail _ st ih =>
    obtain ⟨x, hx, hs⟩ := ih
    rcases st with st | st
    · obtain ⟨x', h1, h2, _⟩ := sim_step hs st
      exact ⟨x', hx.tail h1, h2⟩
    · obtain ⟨x', h1, h2, _⟩ := sim_spurious hs st
      exact ⟨x', hx.tail h1, h2⟩

theorem inv_of_steps {cap : ℕ} {x y : ASt} {P : ASt → Prop} (hP : ∀ a b, P a → AStep cap a b → P b) (h0 : P x) (h : Relation.ReflTransGen (AStep cap) x y) : P y := by
  induction h with
  | refl => exact h0
  | tail _ st ih => exact hP _ _ ih st

theorem reach_inv {cap n : ℕ} {clients : List Script} {s : St} (hp : Proper clients) (h : Reach (init cap n clients) s) :
    ∃ x, Sim cap s x ∧ Awake cap n x ∧ End n x ∧ Book (((clients.map fun sc => sc.map Prod.fst).flatten : List Msg) + n • {Msg.terminate}) x ∧
      Orderly (start n clients).threads x ∧ ((∀ sc ∈ clients, ∀ e ∈ sc, e.2 = Policy.block) → Polite x) ∧ (n = 1 → Single x) := by
  obtain ⟨x, hx, hs⟩ := reach_sim h
  refine ⟨x, hs, inv_of_steps (fun _ _ => awake_step) (awake_start cap n clients) hx, inv_of_steps (fun _ _ => end_step) (end_start hp) hx,
    inv_of_steps (fun _ _ => book_step) (book_start n clients) hx, inv_of_steps (fun _ _ => orderly_step) (orderly_start n clients) hx,
    fun hb => inv_of_steps (fun _ _ => polite_step) (polite_start hb) hx, ?_⟩
  rintro rfl
  exact (inv_of_steps (P := fun x => Awake cap 1 x ∧ Single x) (fun _ _ h st => ⟨awake_step h.1 st, single_step h.1 h.2 st⟩)
    ⟨awake_start cap 1 clients, single_start clients⟩ hx).2

theorem run_weight {cap n k w : ℕ} {clients : List Script} {s0 s : St} (h : Spec.Run k w s0 s) (e : s0 = init cap n clients) :
    ∃ x, Sim cap s x ∧ k + weight x ≤ weight (start n clients) + w := by
  induction h with
  | nil s => subst e; exact ⟨_, sim_start cap n clients, by omega⟩
  | step _ st ih =>
    obtain ⟨x, hs, hw⟩ := ih e
    obtain ⟨x', _, h2, h3⟩ := sim_step hs st
    exact ⟨x', h2, by omega⟩
  | wake _ st ih =>
    obtain ⟨x, hs, hw⟩ := ih e
    obtain ⟨x', _, h2, h3⟩ := sim_spurious hs st
    exact ⟨x', h2, by omega⟩

/-! ### States without a step -/

theorem exists_notify (wake : Thread → Option Thread) (l : List Thread) : ∃ l', Notify wake l l' := by
  by_cases h : ∀ t ∈ l, wake t = none
  · exact ⟨l, .nobody l h⟩
  · push Not at h
    obtain ⟨t, ht, hw⟩ := h
    obtain ⟨a, b, rfl⟩ := List.append_of_mem ht
    obtain ⟨t', ht'⟩ := Option.ne_none_iff_exists'.1 hw
    exact ⟨_, .one a t t' b ht'⟩

/-- Threads that cannot go on. -/
theorem stuck_threads {cap : ℕ} {s : St} {x : ASt} (h : Sim cap s x) (hs : Spec.Stuck s) :
    ∀ t ∈ s.threads, t = .asleep ∨ t = .finished ∨ t = .check [] ∨ (∃ sc, t = .blocked sc) ∨ ∃ n, t = .waiting n := by
  intro t ht
  obtain ⟨q, ts, po, su⟩ := s
  obtain ⟨a, b, e⟩ := List.append_of_mem ht
  simp only at e
  subst e
  have hr := h.rep
  simp only at hr
  match t with
  | .asleep => simp
  | .finished => simp
  | .waiting n => simp
  | .blocked sc => simp
  | .check [] => simp
  | .want =>
    exfalso
    by_cases he : CircularQ.empty q = true
    · exact hs _ (.sleep q a b po su he)
    · cases hl : x.l with
      | nil => rw [hl] at hr; rw [CircularQ.empty_rep hr] at he; simp at he
      | cons m l =>
        rw [hl] at hr
        obtain ⟨q2, e2, _⟩ := CircularQ.pop_rep hr
        exact hs _ (.take q q2 a b po su m (by simpa using he) (CircularQ.front_rep hr) e2)
  | .popped m =>
    obtain ⟨l', hn⟩ := exists_notify wakePoster (a ++ .handling m :: b)
    exact absurd (.notifyPop q a b l' po su m hn) (hs _)
  | .handling m =>
    exfalso
    by_cases hm : m = .terminate
    · subst hm; exact hs _ (.stop q a b po su)
    · exact hs _ (.sink q a b po su m hm)
  | .pushed sc =>
    obtain ⟨l', hn⟩ := exists_notify wakeWorker (a ++ .check sc :: b)
    exact absurd (.notifyPush q a b l' po su sc hn) (hs _)
  | .check ((m, p) :: sc) =>
    exfalso
    obtain ⟨q2, e2, _⟩ := CircularQ.push_rep hr m
    cases p with
    | overrun => exact hs _ (.post q q2 a b po su m .overrun sc (by simp) e2)
    | block =>
      by_cases hf : CircularQ.full q = true
      · exact hs _ (.wait q a b po su m sc hf)
      · exact hs _ (.post q q2 a b po su m .block sc (by simpa using hf) e2)

theorem stuck_over {cap n : ℕ} {s : St} {x : ASt} (hc : 0 < cap) (hn : 0 < n) (h : Sim cap s x) (ha : Awake cap n x) (he : End n x) (hs : Spec.Stuck s) :
    Spec.Over s ∧ x.l = [] ∧ tot nFinished x.threads = n := by
  have ht := stuck_threads h hs
  have hth := h.threads
  rw [hth] at ht
  have z : ∀ f : Thread → ℕ, f .asleep = 0 → f .finished = 0 → f (.check []) = 0 → (∀ sc, f (.blocked sc) = 0) → (∀ n, f (.waiting n) = 0) → tot f x.threads = 0 :=
    fun f h1 h2 h3 h4 h5 => tot_zero fun t hm => by
      rcases ht t hm with rfl | rfl | rfl | ⟨sc, rfl⟩ | ⟨n, rfl⟩
      · exact h1
      · exact h2
      · exact h3
      · exact h4 _
      · exact h5 _
  have z1 := z nWant rfl rfl rfl (fun _ => rfl) (fun _ => rfl)
  have z2 := z nPushed rfl rfl rfl (fun _ => rfl) (fun _ => rfl)
  have z3 := z nCheck rfl rfl rfl (fun _ => rfl) (fun _ => rfl)
  have z4 := z nPopped rfl rfl rfl (fun _ => rfl) (fun _ => rfl)
  have z5 := z nTerm rfl rfl rfl (fun _ => rfl) (fun _ => rfl)
  have hw : tot nAsleep x.threads + tot nFinished x.threads = n := by
    rw [← ha.workers]
    have : ∀ l : List Thread, (∀ t ∈ l, t = .asleep ∨ t = .finished ∨ t = .check [] ∨ (∃ sc, t = .blocked sc) ∨ ∃ n, t = .waiting n) →
        tot nAsleep l + tot nFinished l = tot nWorker l := by
      intro l
      induction l with
      | nil => intro _; rfl
      | cons t l ih =>
        intro hl
        have i := ih fun t ht => hl t (by simp [ht])
        rcases hl t (by simp) with rfl | rfl | rfl | ⟨sc, rfl⟩ | ⟨n, rfl⟩ <;> simp [nAsleep, nFinished, nWorker] <;> omega
    exact this _ ht
  have hpush := ha.push
  have hpop := ha.pop
  have hcount := he.count
  obtain ⟨l1, k, e1, e2, e3⟩ := he.last
  -- no message is left to those that have finished
  have key : tot nAsleep x.threads = 0 → x.l = [] := by
    intro h0
    have : l1 = [] := e3 (by omega)
    subst this
    have hk : x.l.count .terminate = k := by rw [e1]; simp
    have : k = 0 := by omega
    rw [e1, this]; rfl
  have hl : x.l = [] := by
    by_cases h0 : tot nAsleep x.threads = 0
    · exact key h0
    · have := hpush (by omega)
      exact List.length_eq_zero_iff.1 (by omega)
  have hb : tot nBlocked x.threads = 0 := by
    by_contra hb
    have := hpop (by omega)
    rw [hl] at this
    simp at this
    omega
  have hblk : ∀ t ∈ x.threads, ∀ sc, t ≠ .blocked sc := by
    rintro t hm sc rfl
    have := tot_pos (f := nBlocked) hm
    simp [nBlocked] at this
    omega
  have hwait : tot nWaiting x.threads ≤ 1 := by rcases he.phase with h | h <;> omega
  have hnw : ∀ t ∈ x.threads, ∀ n, t ≠ .waiting n := by
    rintro t hm n rfl
    obtain ⟨a, b, e⟩ := List.append_of_mem hm
    rw [e] at hwait
    simp [nWaiting] at hwait
    obtain ⟨q, ts, po, su⟩ := s
    simp only at hth
    subst hth
    rw [e] at hs ht hblk
    refine hs _ (.destroy q a b po su n fun t ht' => ?_)
    have hm' : t ∈ a ++ .waiting n :: b := by
      rcases List.mem_append.1 ht' with h | h <;> simp [h]
    rcases ht t hm' with rfl | rfl | rfl | ⟨sc, rfl⟩ | ⟨n', rfl⟩
    · trivial
    · trivial
    · trivial
    · exact absurd rfl (hblk _ hm' sc)
    · exfalso
      rcases List.mem_append.1 ht' with h | h
      · have := tot_pos (f := nWaiting) h; simp [nWaiting] at this; omega
      · have := tot_pos (f := nWaiting) h; simp [nWaiting] at this; omega
  have z6 : tot nScript x.threads = 0 := tot_zero fun t hm => by
    rcases ht t hm with rfl | rfl | rfl | ⟨sc, rfl⟩ | ⟨n, rfl⟩
    · rfl
    · rfl
    · rfl
    · exact absurd rfl (hblk _ hm sc)
    · exact absurd rfl (hnw _ hm n)
  have hf : tot nFinished x.threads = n := by
    rw [hl] at hcount
    simp at hcount
    omega
  refine ⟨?_, hl, hf⟩
  intro t hm
  rw [hth] at hm
  rcases ht t hm with rfl | rfl | rfl | ⟨sc, rfl⟩ | ⟨n, rfl⟩
  · have := tot_pos (f := nAsleep) hm
    simp [nAsleep] at this
    omega
  · simp
  · simp
  · exact absurd rfl (hblk _ hm sc)
  · exact absurd rfl (hnw _ hm n)

/-- What left the queue was taken or pushed out. -/
theorem gone_split (g : List (Msg × Bool)) : ((g.map Prod.fst : List Msg) : Multiset Msg) =
    ((g.filter fun e => e.2).map Prod.fst : List Msg) + ((g.filter fun e => !e.2).map Prod.fst : List Msg) := by
  induction g with
  | nil => rfl
  | cons e g ih =>
    obtain ⟨m, v⟩ := e
    rw [List.map_cons, ← Multiset.cons_coe, ih]
    cases v <;> simp [List.filter_cons, ← Multiset.cons_coe]

theorem tot_over {x : ASt} (h : ∀ t ∈ x.threads, t = .finished ∨ t = .check []) : tot inHand x.threads = 0 ∧ tot pend x.threads = 0 ∧
    x.threads.flatMap hand = [] := by
  obtain ⟨l, ts, po, su, g⟩ := x
  simp only at *
  induction ts with
  | nil => simp
  | cons t ts ih =>
    obtain ⟨i1, i2, i3⟩ := ih fun t ht => h t (by simp [ht])
    rcases h t (by simp) with rfl | rfl <;> simp [i1, i2, i3, inHand, hand, pend, script]

theorem sunk_step {cap : ℕ} {x x' : ASt} (h : Msg.terminate ∉ x.sunk) (st : AStep cap x x') : Msg.terminate ∉ x'.sunk := by
  cases st with
  | sink l a b posted sunk g m hm =>
    simp only [List.mem_append, List.mem_singleton, not_or]
    exact ⟨h, fun e => hm e.symm⟩
  | _ => exact h

theorem zero_step {n : ℕ} {x x' : ASt} (ha : Awake 0 n x) (h : ∀ e ∈ x.gone, e.2 = false) (st : AStep 0 x x') : ∀ e ∈ x'.gone, e.2 = false := by
  have hr := ha.room
  cases st with
  | take m l a b posted sunk g => simp at hr
  | over l l' y a b posted sunk g m sc hl e =>
    intro e he
    simp only [List.mem_append, List.mem_singleton] at he
    rcases he with he | rfl
    · exact h e he
    · rfl
  | _ => exact h

/-- Threads that wait for a notification or are done cannot go on. -/
theorem stuck_of {s : St} (h : ∀ t ∈ s.threads, t = .asleep ∨ t = .finished ∨ t = .check [] ∨ ∃ sc, t = .blocked sc) : Spec.Stuck s := by
  intro s' st
  cases st with
  | take q q' a b posted sunk m => have := h .want (by simp); simp at this
  | sleep q a b posted sunk => have := h .want (by simp); simp at this
  | notifyPop q a b l posted sunk m => have := h (.popped m) (by simp); simp at this
  | sink q a b posted sunk m => have := h (.handling m) (by simp); simp at this
  | stop q a b posted sunk => have := h (.handling .terminate) (by simp); simp at this
  | post q q' a b posted sunk m p sc => have := h (.check ((m, p) :: sc)) (by simp); simp at this
  | wait q a b posted sunk m sc => have := h (.check ((m, .block) :: sc)) (by simp); simp at this
  | notifyPush q a b l posted sunk sc => have := h (.pushed sc) (by simp); simp at this
  | destroy q a b posted sunk n => have := h (.waiting n) (by simp); simp at this

theorem reach_stuck {cap : ℕ} (k : ℕ) : ∀ {s : St} {x : ASt}, Sim cap s x → weight x ≤ k → ∃ s', Relation.ReflTransGen Step s s' ∧ Spec.Stuck s' := by
  induction k with
  | zero =>
    intro s x h hw
    refine ⟨s, .refl, fun s' st => ?_⟩
    obtain ⟨x', _, _, h3⟩ := sim_step h st
    omega
  | succ k ih =>
    intro s x h hw
    by_cases hs : Spec.Stuck s
    · exact ⟨s, .refl, hs⟩
    · unfold Spec.Stuck at hs
      push Not at hs
      obtain ⟨s', st⟩ := hs
      obtain ⟨x', _, h2, h3⟩ := sim_step h st
      obtain ⟨s2, r2, t2⟩ := ih h2 (by omega)
      exact ⟨s2, .head st r2, t2⟩

end Verif.LogPool
