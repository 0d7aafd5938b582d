import Verif.Model.Domain
/-! FDPS/particle_system.hpp: `exchangeParticle` (23-58, 624-770).  With MPI and in three dimensions.  Simplified: exact real numbers;
counts are unbounded naturals (`S32` in the code); MPI delivers a block unchanged. -/
namespace Verif.Migrate
open Domain

/-- What can go wrong: the program is aborted on purpose, it reads or writes outside of an array, or it waits for a message that is
never sent. -/
inductive Fault where
  | abort
  | outside
  | waits
deriving DecidableEq

/-- particle_system.hpp:23-33 `determineWhetherParticleIsInDomain`. -/
def inDomain (p : V3) (b : Box) : Prop :=
  ((b.low.x ≤ p.x ∧ p.x < b.high.x) ∧ (b.low.y ≤ p.y ∧ p.y < b.high.y)) ∧ (b.low.z ≤ p.z ∧ p.z < b.high.z)

/-- particle_system.hpp:47-55: one of the loops `while(domain[idomain].high_ <= pos) idomain += step`; `dom` has `n` elements. -/
noncomputable def climb (f : V3 → ℝ) (dom : ℕ → Box) (n step : ℕ) (p : V3) : ℕ → ℕ → Option ℕ
  | 0, _ => none
  | fuel + 1, i =>
    if n ≤ i then none else
      open Classical in if f (dom i).high ≤ f p then climb f dom n step p fuel (i + step) else some i

/-- particle_system.hpp:35-58 `searchWhichDomainParticleGoTo`; `none` outside the array. -/
noncomputable def search (g : Grid) (dom : ℕ → Box) (p : V3) : Option ℕ :=
  match climb V3.x dom g.n (g.ny * g.nz) p (g.n + 1) 0 with
  | none => none
  | some i =>
    match climb V3.y dom g.n g.nz p (g.n + 1) i with
    | none => none
    | some j => climb V3.z dom g.n 1 p (g.n + 1) j

/-- particle_system.hpp:655-666: the loop that counts. -/
noncomputable def count {α : Type} (pos : α → V3) (root : Box) (g : Grid) (dom : ℕ → Box) (rank : ℕ) : List α → (ℕ → ℕ) → Except Fault (ℕ → ℕ)
  | [], ns => .ok ns
  | e :: r, ns => open Classical in
    if ¬ root.overlappedPos (pos e) then .error .abort
    else if inDomain (pos e) (dom rank) then count pos root g dom rank r ns
    else
      match search g dom (pos e) with
      | none => .error .outside
      | some s => count pos root g dom rank r (Function.update ns s (ns s + 1))

/-- particle_system.hpp:668-671, 702-705: displacements. -/
def disp (ns : ℕ → ℕ) : ℕ → ℕ
  | 0 => 0
  | i + 1 => disp ns i + ns i

/-- The variables of the loop that aligns: `ptcl_`, `iloc`, `ptcl_send`, `nsend`. -/
structure Align (α : Type) where
  ptcl : List α
  iloc : ℕ
  send : List (Option α)
  nsend : ℕ → ℕ

/-- particle_system.hpp:677-688: the loop that aligns, from `ip` on; `none` outside of an array. -/
noncomputable def align {α : Type} (pos : α → V3) (g : Grid) (dom : ℕ → Box) (rank : ℕ) (nd : ℕ → ℕ) : ℕ → ℕ → Align α → Option (Align α)
  | 0, _, st => some st
  | k + 1, ip, st =>
    match st.ptcl[ip]? with
    | none => none
    | some e => open Classical in
      if inDomain (pos e) (dom rank) then
        if st.iloc < st.ptcl.length then align pos g dom rank nd k (ip + 1) { st with ptcl := st.ptcl.set st.iloc e, iloc := st.iloc + 1 } else none
      else
        match search g dom (pos e) with
        | none => none
        | some s =>
          let jloc := st.nsend s + nd s
          if jloc < st.send.length then
            align pos g dom rank nd k (ip + 1) { st with send := st.send.set jloc (some e), nsend := Function.update st.nsend s (st.nsend s + 1) }
          else none

/-- What a rank has before the communication: the particles that stay, `ptcl_send`, `nsend`, `nsend_disp`. -/
structure Sent (α : Type) where
  kept : List α
  send : List (Option α)
  nsend : ℕ → ℕ
  nsendDisp : ℕ → ℕ

/-- particle_system.hpp:655-689: the part of a rank before the communication. -/
noncomputable def prepare {α : Type} (pos : α → V3) (root : Box) (g : Grid) (dom : ℕ → Box) (rank : ℕ) (l : List α) : Except Fault (Sent α) :=
  match count pos root g dom rank l (fun _ => 0) with
  | .error f => .error f
  | .ok ns =>
    let nd := disp ns
    match align pos g dom rank nd l.length 0 ⟨l, 0, List.replicate (nd g.n) none, fun _ => 0⟩ with
    | none => .error .outside
    | some st => .ok ⟨st.ptcl.take st.iloc, st.send, st.nsend, nd⟩

/-- The elements of a message from the buffer; `none` if it reaches beyond the array. -/
def block {α : Type} (send : List (Option α)) (at_ len : ℕ) : Option (List (Option α)) :=
  if at_ + len ≤ send.length then some ((send.drop at_).take len) else none

/-- A message is written into an array; `none` if it reaches beyond the array. -/
def put {α : Type} (mem : List (Option α)) (at_ : ℕ) (msg : List (Option α)) : Option (List (Option α)) :=
  if at_ + msg.length ≤ mem.length then some (mem.take at_ ++ msg ++ mem.drop (at_ + msg.length)) else none

/-- particle_system.hpp:722-727: the messages rank `a` sends in the loop: destination and tag. -/
def sends {α : Type} (n a : ℕ) (S : Sent α) : List (ℕ × ℕ) :=
  ((List.range' 1 (n - 1)).filter fun ib => decide (S.nsend ((ib + a) % n) > 0)).map fun ib =>
    ((ib + a) % n, if a < (ib + a) % n then a else (ib + a) % n)

/-- particle_system.hpp:728-735: one receive of rank `r`. -/
def receive {α : Type} (n : ℕ) (S : ℕ → Sent α) (r : ℕ) (iloc : ℕ) (nrecv : ℕ → ℕ) (ib : ℕ) (mem : List (Option α)) : Except Fault (List (Option α)) :=
  let id := (n + r - ib) % n
  if nrecv id > 0 then
    if (r, if r < id then r else id) ∈ sends n id (S id) then
      match block (S id).send ((S id).nsendDisp r) ((S id).nsend r) with
      | none => .error .outside
      | some msg =>
        match put mem (disp nrecv id + iloc) msg with
        | none => .error .outside
        | some mem' => .ok mem'
    else .error .waits
  else .ok mem

/-- particle_system.hpp:721-739: the loop over `ib`, in the order `ord` in which the messages arrive. -/
def oneToOne {α : Type} (n : ℕ) (S : ℕ → Sent α) (r : ℕ) (iloc : ℕ) (nrecv : ℕ → ℕ) : List ℕ → List (Option α) → Except Fault (List (Option α))
  | [], mem => .ok mem
  | ib :: ord, mem =>
    match receive n S r iloc nrecv ib mem with
    | .error f => .error f
    | .ok mem' => oneToOne n S r iloc nrecv ord mem'

/-- particle_system.hpp:743: `MPI_Alltoallv`, in the order `ord` in which the messages arrive. -/
def allToAllV {α : Type} (S : ℕ → Sent α) (r : ℕ) (iloc : ℕ) (nrecv : ℕ → ℕ) : List ℕ → List (Option α) → Except Fault (List (Option α))
  | [], mem => .ok mem
  | a :: ord, mem =>
    match block (S a).send ((S a).nsendDisp r) ((S a).nsend r) with
    | none => .error .outside
    | some msg =>
      match put mem (iloc + disp nrecv a) msg with
      | none => .error .outside
      | some mem' => allToAllV S r iloc nrecv ord mem'

/-- particle_system.hpp:700-708: the flag of rank `r`; `lim` is `n_proc_comm_limit`. -/
def flag {α : Type} (lim n : ℕ) (S : ℕ → Sent α) (r : ℕ) : Bool :=
  decide (((List.range n).filter fun i => decide ((S r).nsend i > 0)).length < lim) &&
    decide (((List.range n).filter fun i => decide ((S i).nsend r > 0)).length < lim)

/-- particle_system.hpp:710 `synchronizeConditionalBranchAND`: which of the two kinds of communication rank `r` takes.  All ranks get the conjunction of the flags. -/
def kind {α : Type} (lim n : ℕ) (S : ℕ → Sent α) (_r : ℕ) : Bool := (List.range n).all (flag lim n S)

/-- particle_system.hpp:698-744: what `ptcl_` of rank `r` holds after the communication.  The part of the array that is enlarged holds
anything before, here `none`.  Simplified: `allToAll` of the counts is the transposed
table.  `allToAllV` is a collective call: if the ranks do not all take the same kind of communication, they wait for ever. -/
def communicate {α : Type} (lim n : ℕ) (S : ℕ → Sent α) (ord ord' : ℕ → List ℕ) (r : ℕ) : Except Fault (List (Option α)) :=
  let nrecv := fun a => (S a).nsend r
  let iloc := (S r).kept.length
  let mem := (S r).kept.map some ++ List.replicate (disp nrecv n) none
  if (List.range n).all (fun a => kind lim n S a == kind lim n S r) then
    if kind lim n S r then oneToOne n S r iloc nrecv (ord r) mem else allToAllV S r iloc nrecv (ord' r) mem
  else .error .waits

/-- The ranks one after another; a fault of any of them is a fault of the whole. -/
def forRanks {β : Type} (f : ℕ → Except Fault β) (junk : β) : ℕ → Except Fault (ℕ → β)
  | 0 => .ok fun _ => junk
  | r + 1 =>
    match forRanks f junk r with
    | .error e => .error e
    | .ok S =>
      match f r with
      | .error e => .error e
      | .ok s => .ok (Function.update S r s)

/-- particle_system.hpp:624-770 `exchangeParticle` on all ranks: `P r` is `ptcl_` of rank `r` before. -/
noncomputable def exchange {α : Type} (lim : ℕ) (pos : α → V3) (root : Box) (g : Grid) (dom : ℕ → Box) (ord ord' : ℕ → List ℕ) (P : ℕ → List α) :
    Except Fault (ℕ → List (Option α)) :=
  match forRanks (fun r => prepare pos root g dom r (P r)) ⟨[], [], fun _ => 0, fun _ => 0⟩ g.n with
  | .error f => .error f
  | .ok S => forRanks (communicate lim g.n S ord ord') [] g.n

end Verif.Migrate
