import Verif.Model.LogPool

/-!
What a pool of logging threads should do.
-/

namespace Verif.LogPool.Spec

/-- Everything that the clients log. -/
def messages (clients : List Script) : List Msg := (clients.map fun sc => sc.map Prod.fst).flatten

/-- No thread can go on. -/
def Stuck (s : St) : Prop := ∀ s', ¬ Step s s'

/-- All calls have returned, and so have the workers and the destructor. -/
def Over (s : St) : Prop := ∀ t ∈ s.threads, t = .finished ∨ t = .check []

/-- A run with `k` steps and `w` wakeups without a notification. -/
inductive Run : ℕ → ℕ → St → St → Prop
  | nil (s : St) : Run 0 0 s s
  | step {k w : ℕ} {s t u : St} : Run k w s t → Step t u → Run (k + 1) w s u
  | wake {k w : ℕ} {s t u : St} : Run k w s t → Spurious t u → Run k (w + 1) s u

end Verif.LogPool.Spec
