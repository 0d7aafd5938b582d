import Mathlib.Logic.Function.Basic
import Mathlib.Data.Nat.Notation
import Mathlib.Data.Int.Notation
/-!
FDPS/memory_pool.hpp `MemoryPool` and FDPS/reallocatable_array.hpp `ReallocatableArray` with `alloc_mode_` 1 (the arrays that live in the pool).

* Memory consists of blocks, one for each `malloc`; an address is a block and an offset in bytes.  A byte is `none` until it is written.  A read or a write outside
  of a living block is `Err.fault`, and so are `free` of a dead block, an index outside of the arrays of the pool, a write to a member of a dead array object.
* The members of the array objects are kept apart from the blocks; `&data_` and `&id_mpool_` are the number of the object.
* `malloc` never fails (the code exits if it does), and `size_t` does not overflow (more than 2^64 bytes).  `memcpy` of 0 bytes does nothing, also with `NULL`.
* `PARTICLE_SIMULATOR_ROUND_UP_CAPACITY` is not defined, `SANITY_CHECK_REALLOCATABLE_ARRAY` neither (the asserts of 279-285, 297-304, 354-361 are not modelled).
* A call within a parallel region (of more than one thread) is one with `par = true`.  The functions of the pool are called in critical sections, so they are atomic here.
-/
namespace Verif.MemPool

/-- How a call can fail: undefined behaviour, or the program is ended by an `assert` or `Abort`. -/
inductive Err where
  | fault
  | abort
  deriving DecidableEq

/-- memory_pool.hpp:14 `N_SEGMENT_LIMIT`. -/
def limit : ℕ := 10000

/-- ps_defs.hpp:79 `LIMIT_NUMBER_OF_TREE_PARTICLE_PER_NODE`. -/
def capLimit : ℕ := 2 ^ 30

/-- An address: block and offset. -/
abbrev Addr := ℕ × ℕ

/-- The members of a `ReallocatableArray<T>` (reallocatable_array.hpp:13-18), with `sizeof(T)`; `alloc_mode_` is 1.  `data = none` is `NULL`. -/
structure Arr where
  width : ℕ
  data : Option Addr
  size : ℕ
  capacity : ℕ
  capacityOrg : ℕ
  id : ℤ

/-- memory_pool.hpp:16-22 `EmergencyBuffer`; `ptr_data` and `ptr_id_mpool` are the array object `owner`. -/
structure Emerg where
  data : ℕ
  cap : ℕ
  used : Bool
  owner : ℕ

/-- The members of `MemoryPool` (memory_pool.hpp:28-37), the blocks and the living array objects.  `top` is `top_ - bottom_`. -/
structure M (β : Type) where
  bottom : ℕ
  top : ℕ
  cap : ℕ
  size : ℕ
  nseg : ℕ
  capSeg : ℕ → ℕ
  usedSeg : ℕ → Bool
  ptrSeg : ℕ → Option ℕ
  emerg : List Emerg
  heap : ℕ → Option (List (Option β))
  fresh : ℕ
  arr : ℕ → Option Arr

variable {β : Type}

/-- memory_pool.hpp:43-45 `getAlignSize`; for sizes of 1 or more. -/
def align (s : ℕ) : ℕ := ((s - 1) / 8 + 1) * 8

/-- `malloc(n)`: the state with the new block, whose number is `m.fresh`. -/
def malloc (n : ℕ) (m : M β) : M β :=
  { m with heap := Function.update m.heap m.fresh (some (List.replicate n none)), fresh := m.fresh + 1 }

/-- `free` of the beginning of a block. -/
def free (b : ℕ) (m : M β) : Except Err (M β) :=
  match m.heap b with
  | none => .error .fault
  | some _ => .ok { m with heap := Function.update m.heap b none }

/-- The bytes that `memcpy` reads. -/
def read (a : Option Addr) (n : ℕ) (m : M β) : Except Err (List (Option β)) :=
  if n = 0 then .ok []
  else
    match a with
    | none => .error .fault
    | some (b, off) =>
      match m.heap b with
      | none => .error .fault
      | some l => if off + n ≤ l.length then .ok ((l.drop off).take n) else .error .fault

/-- `memcpy` or assignments of `v` to `a`. -/
def write (a : Option Addr) (v : List (Option β)) (m : M β) : Except Err (M β) :=
  if v.length = 0 then .ok m
  else
    match a with
    | none => .error .fault
    | some (b, off) =>
      match m.heap b with
      | none => .error .fault
      | some l =>
        if off + v.length ≤ l.length then
          .ok { m with heap := Function.update m.heap b (some (l.take off ++ v ++ l.drop (off + v.length))) }
        else .error .fault

/-- A write through `ptr_data`: the member `data_` of the array `o`. -/
def ptrWrite (o : Option ℕ) (a : Addr) (m : M β) : Except Err (M β) :=
  match o with
  | none => .error .fault
  | some o =>
    match m.arr o with
    | none => .error .fault
    | some r => .ok { m with arr := Function.update m.arr o (some { r with data := some a }) }

/-- A write through `ptr_id_mpool` or `_id_mpool`: the member `id_mpool_` of the array `o`. -/
def idWrite (o : ℕ) (i : ℤ) (m : M β) : Except Err (M β) :=
  match m.arr o with
  | none => .error .fault
  | some r => .ok { m with arr := Function.update m.arr o (some { r with id := i }) }

/-- memory_pool.hpp:106-112: the loop over the segments from `i` on, `k` of them left, `cum` is `cap_cum`; `b` is `bottom_new`. -/
def relocate (b : ℕ) : ℕ → ℕ → ℕ → M β → Except Err (M β)
  | 0, _, _, m => .ok m
  | k + 1, i, cum, m =>
    if limit ≤ i then .error .fault
    else
      match (if m.usedSeg i then ptrWrite (m.ptrSeg i) (b, cum) m else .ok m) with
      | .error e => .error e
      | .ok m' => relocate b k (i + 1) (cum + m.capSeg i) m'

/-- memory_pool.hpp:95-124 `reInitialize`. -/
def reInitialize (sizeAdd : ℕ) (m : M β) : Except Err (M β) :=
  let capNew := align (m.cap + sizeAdd)
  let m1 := malloc capNew m
  let m2 := { m1 with bottom := m.fresh, cap := capNew }
  match read (some (m.bottom, 0)) m.cap m2 with
  | .error e => .error e
  | .ok v =>
    match write (some (m.fresh, 0)) v m2 with
    | .error e => .error e
    | .ok m3 =>
      match relocate m.fresh m.nseg 0 0 m3 with
      | .error e => .error e
      | .ok m4 => free m.bottom m4

/-- memory_pool.hpp:139-155: one emergency buffer. -/
def moveOne (m : M β) (e : Emerg) : Except Err (M β) :=
  if e.used then
    if limit ≤ m.nseg then .error .fault
    else
      let m1 := { m with
        top := m.top + e.cap, size := m.size + e.cap, nseg := m.nseg + 1
        capSeg := Function.update m.capSeg m.nseg e.cap
        usedSeg := Function.update m.usedSeg m.nseg true
        ptrSeg := Function.update m.ptrSeg m.nseg (some e.owner) }
      match read (some (e.data, 0)) e.cap m1 with
      | .error x => .error x
      | .ok v =>
        match write (some (m.bottom, m.top)) v m1 with
        | .error x => .error x
        | .ok m2 =>
          match ptrWrite (some e.owner) (m.bottom, m.top) m2 with
          | .error x => .error x
          | .ok m3 => idWrite e.owner m.nseg m3
  else .ok m

/-- memory_pool.hpp:138-156: the loop. -/
def moveAll : List Emerg → M β → Except Err (M β)
  | [], m => .ok m
  | e :: es, m =>
    match moveOne m e with
    | .error x => .error x
    | .ok m' => moveAll es m'

/-- memory_pool.hpp:158-161: the loop (`data` is never `NULL`). -/
def freeAll : List Emerg → M β → Except Err (M β)
  | [], m => .ok m
  | e :: es, m =>
    match free e.data m with
    | .error x => .error x
    | .ok m' => freeAll es m'

/-- memory_pool.hpp:130-134 `size_add`. -/
def sizeAdd (es : List Emerg) : ℕ := (es.map fun e => if e.used then e.cap else 0).sum

/-- memory_pool.hpp:126-164 `unifyMem`. -/
def unifyMem (par : Bool) (m : M β) : Except Err (M β) :=
  if par = false ∧ 0 < m.emerg.length then
    match (if m.cap < m.size + sizeAdd m.emerg then reInitialize (sizeAdd m.emerg) m else .ok m) with
    | .error x => .error x
    | .ok m1 =>
      match moveAll m.emerg m1 with
      | .error x => .error x
      | .ok m2 =>
        match freeAll m.emerg m2 with
        | .error x => .error x
        | .ok m3 => .ok { m3 with emerg := [] }
  else .ok m

/-- memory_pool.hpp:172-183: the search for a free segment from `i` on, `k` of them left; the segment and `cap_cum`.  (`n_segment_` is never above the limit: `moveOne` and
`alloc` check it, so the indices are inside of the arrays.) -/
def firstFit (m : M β) (sz : ℕ) : ℕ → ℕ → ℕ → Option (ℕ × ℕ)
  | 0, _, _ => none
  | k + 1, i, cum => if m.usedSeg i = false ∧ sz ≤ m.capSeg i then some (i, cum) else firstFit m sz k (i + 1) (cum + m.capSeg i)

/-- memory_pool.hpp:188-195 with 46-54 `isLastSegment`; `id` is `_id_mpool`. -/
def popOwn (id : ℤ) (m : M β) : M β :=
  if id < limit ∧ 0 < m.nseg ∧ id = (m.nseg : ℤ) - 1 then
    let n := m.nseg - 1
    { m with
      nseg := n, top := m.top - m.capSeg n, size := m.size - m.capSeg n
      capSeg := Function.update m.capSeg n 0
      usedSeg := Function.update m.usedSeg n false
      ptrSeg := Function.update m.ptrSeg n none }
  else m

/-- memory_pool.hpp:204-212: a new segment at the end, for the array `o`. -/
def append (sz o : ℕ) (m : M β) : Except Err (M β × Option Addr) :=
  let m1 := { m with
    top := m.top + sz, size := m.size + sz, nseg := m.nseg + 1
    capSeg := Function.update m.capSeg m.nseg sz
    usedSeg := Function.update m.usedSeg m.nseg true
    ptrSeg := Function.update m.ptrSeg m.nseg (some o) }
  match idWrite o m.nseg m1 with
  | .error x => .error x
  | .ok m2 => .ok (m2, some (m.bottom, m.top))

/-- memory_pool.hpp:214-228: a new emergency buffer for the array `o`. -/
def emergency (sz o : ℕ) (m : M β) : Except Err (M β × Option Addr) :=
  let m1 := malloc sz m
  match idWrite o (limit + m.emerg.length : ℕ) { m1 with emerg := m.emerg ++ [⟨m.fresh, sz, true, o⟩] } with
  | .error x => .error x
  | .ok m2 => .ok (m2, some (m.fresh, 0))

/-- memory_pool.hpp:185-239: no free segment is large enough. -/
def allocTail (par : Bool) (sz o : ℕ) (id : ℤ) (m : M β) : Except Err (M β × Option Addr) :=
  if m.nseg + 1 < limit then
    let m1 := popOwn id m
    if m1.cap < m1.size + sz then
      if par then emergency sz o m1
      else
        match reInitialize sz m1 with
        | .error x => .error x
        | .ok m2 => append sz o m2
    else append sz o m1
  else .error .abort

/-- memory_pool.hpp:166-240 `alloc(_size, id_mpool_, &data_, ret)` for the array `o`; the result is `ret`. -/
def alloc (par : Bool) (size o : ℕ) (m : M β) : Except Err (M β × Option Addr) :=
  if size = 0 then .ok (m, none)
  else
    match unifyMem par m with
    | .error x => .error x
    | .ok m1 =>
      match firstFit m1 (align size) m1.nseg 0 0 with
      | some (i, cum) =>
        match idWrite o i { m1 with usedSeg := Function.update m1.usedSeg i true, ptrSeg := Function.update m1.ptrSeg i (some o) } with
        | .error x => .error x
        | .ok m2 => .ok (m2, some (m1.bottom, cum))
      | none =>
        match m1.arr o with
        | none => .error .fault
        | some r => allocTail par (align size) o r.id m1

/-- memory_pool.hpp:247-253: the loop from `i = k - 1` down to 0. -/
def trim : ℕ → M β → M β
  | 0, m => m
  | k + 1, m =>
    if m.usedSeg k then m
    else
      trim k { m with
        size := m.size - m.capSeg k, nseg := m.nseg - 1
        capSeg := Function.update m.capSeg k 0
        ptrSeg := Function.update m.ptrSeg k none }

/-- memory_pool.hpp:245-255: a segment. -/
def release (i : ℕ) (m : M β) : M β :=
  let m1 := { m with usedSeg := Function.update m.usedSeg i false }
  let m2 := if i + 1 = m.nseg then trim (i + 1) m1 else m1
  { m2 with top := m2.size }

/-- memory_pool.hpp:242-261 `freeMem(id_seg)`.  Line 243 reads `cap_per_seg_[id_seg]` also for -1 (an array without memory) and for emergency buffers, for which the index
is 10000 or more: out of bounds.  With `intended = false` this is a fault; with `intended = true` the read has the outcome the authors must have had in mind: nothing to
do for -1, and go on for an emergency buffer. -/
def freeMem (intended par : Bool) (id : ℤ) (m : M β) : Except Err (M β) :=
  if 0 ≤ id ∧ id < limit then
    if m.capSeg id.toNat = 0 then .ok m else unifyMem par (release id.toNat m)
  else if intended then
    if id = -1 then .ok m
    else if id < 0 then .error .fault
    else
      match m.emerg[id.toNat - limit]? with
      | none => .error .fault
      | some e => unifyMem par { m with emerg := m.emerg.set (id.toNat - limit) { e with used := false } }
  else .error .fault

/-- `MemoryPool::initialize(cap)` (memory_pool.hpp:74-94) at the start of the program; there are no arrays yet. -/
def initial (cap : ℕ) : M β :=
  { bottom := 0, top := 0, cap := cap, size := 0, nseg := 0, capSeg := fun _ => 0, usedSeg := fun _ => false, ptrSeg := fun _ => none, emerg := []
    heap := Function.update (fun _ => none) 0 (some (List.replicate cap none)), fresh := 1, arr := fun _ => none }

/-! ### ReallocatableArray -/

/-- Assign the members of the array `o`. -/
def setArr (o : ℕ) (r : Arr) (m : M β) : M β := { m with arr := Function.update m.arr o (some r) }

/-- `void * ret = NULL; MemoryPool::alloc(size, id_mpool_, &data_, ret); data_ = (T*)ret;` (reallocatable_array.hpp:58-60, 124-126, 311-313). -/
def allocData (par : Bool) (size o : ℕ) (m : M β) : Except Err (M β) :=
  match alloc par size o m with
  | .error x => .error x
  | .ok (m1, ret) =>
    match m1.arr o with
    | none => .error .fault
    | some r => .ok (setArr o { r with data := ret } m1)

/-- reallocatable_array.hpp:161-163 with 31-64: the constructor `ReallocatableArray(cap, size, 1)`. -/
def construct (par : Bool) (o w cap size : ℕ) (m : M β) : Except Err (M β) :=
  if capLimit ≤ cap then .error .abort
  else allocData par (w * cap) o (setArr o ⟨w, none, size, cap, 0, -1⟩ m)

/-- reallocatable_array.hpp:118-135: `ReallocInner(new_cap)`.  The temporary copy `data_old` is a value here. -/
def reallocInner (intended par : Bool) (o newCap : ℕ) (m : M β) : Except Err (M β) :=
  match m.arr o with
  | none => .error .fault
  | some r =>
    match read r.data (r.width * r.capacity) m with
    | .error x => .error x
    | .ok old =>
      match allocData par (r.width * newCap) o (setArr o { r with capacity := newCap } m) with
      | .error x => .error x
      | .ok m1 =>
        match m1.arr o with
        | none => .error .fault
        | some r1 =>
          match (if r.id ≠ r1.id then freeMem intended par r.id m1 else .ok m1) with
          | .error x => .error x
          | .ok m2 =>
            match m2.arr o with
            | none => .error .fault
            | some r2 => write r2.data (old.take (r.width * r.size)) m2

/-- reallocatable_array.hpp:305, 378, 404: `(n+(n+10)/10)+100`. -/
def grown (n : ℕ) : ℕ := n + (n + 10) / 10 + 100

/-- reallocatable_array.hpp:306-319: the first allocation of `resizeNoInitialize(n)`. -/
def resizeFirst (par : Bool) (o n newCap : ℕ) (r : Arr) (m : M β) : Except Err (M β) :=
  if r.data = none then
    match allocData par (r.width * newCap) o m with
    | .error x => .error x
    | .ok m1 =>
      match m1.arr o with
      | none => .error .fault
      | some r1 => .ok (setArr o { r1 with capacity := newCap, size := n } m1)
  else .ok m

/-- reallocatable_array.hpp:320-339: `n > capacity_`. -/
def resizeGrow (intended par : Bool) (o n newCap : ℕ) (m : M β) : Except Err (M β) :=
  match m.arr o with
  | none => .error .fault
  | some r =>
    if r.capacity < n then
      if capLimit ≤ newCap then .error .abort else reallocInner intended par o newCap m
    else .ok m

/-- reallocatable_array.hpp:340: `size_ = n`. -/
def setSize (o n : ℕ) (m : M β) : Except Err (M β) :=
  match m.arr o with
  | none => .error .fault
  | some r => .ok (setArr o { r with size := n } m)

/-- reallocatable_array.hpp:293-341: `resizeNoInitialize(n)`.  The sum for the new capacity is a fault if it overflows `int`. -/
def resize (intended par : Bool) (o n : ℕ) (m : M β) : Except Err (M β) :=
  if 2 ^ 31 ≤ grown n then .error .fault
  else
    match m.arr o with
    | none => .error .fault
    | some r =>
      match resizeFirst par o n (max (grown n) r.capacityOrg) r m with
      | .error x => .error x
      | .ok m1 =>
        match resizeGrow intended par o n (max (grown n) r.capacityOrg) m1 with
        | .error x => .error x
        | .ok m2 => setSize o n m2

/-- `data_[i] = val` with the bytes `v` of `val`. -/
def setElem (o i : ℕ) (v : List (Option β)) (m : M β) : Except Err (M β) :=
  match m.arr o with
  | none => .error .fault
  | some r =>
    match r.data with
    | none => .error .fault
    | some (b, off) => write (some (b, off + r.width * i)) v m

/-- reallocatable_array.hpp:277-289: `push_back(val)` of a value that is not in an array of the pool. -/
def pushBack (intended par : Bool) (o : ℕ) (v : List (Option β)) (m : M β) : Except Err (M β) :=
  match m.arr o with
  | none => .error .fault
  | some r =>
    match resize intended par o (r.size + 1) m with
    | .error x => .error x
    | .ok m1 => setElem o r.size v m1

/-- reallocatable_array.hpp:352-363: `pushBackNoCheck(val)`. -/
def pushBackNoCheck (o : ℕ) (v : List (Option β)) (m : M β) : Except Err (M β) :=
  match m.arr o with
  | none => .error .fault
  | some r => setElem o r.size v (setArr o { r with size := r.size + 1 } m)

/-- reallocatable_array.hpp:364: `clearSize()`. -/
def clearSize (o : ℕ) (m : M β) : Except Err (M β) := setSize o 0 m

/-- reallocatable_array.hpp:367-390: `reserveAtLeast(n)`; 395-420 `reserveEmptyAreaAtLeast(n_add)` is this with `n = n_add + size_`. -/
def reserveAtLeast (intended par : Bool) (o n : ℕ) (m : M β) : Except Err (M β) :=
  match m.arr o with
  | none => .error .fault
  | some r =>
    if r.capacity ≤ n then
      if 2 ^ 31 ≤ grown n then .error .fault
      else if capLimit ≤ grown n then .error .abort
      else reallocInner intended par o (grown n) m
    else .ok m

/-- reallocatable_array.hpp:395-420: `reserveEmptyAreaAtLeast(n_add)`. -/
def reserveEmpty (intended par : Bool) (o n : ℕ) (m : M β) : Except Err (M β) :=
  match m.arr o with
  | none => .error .fault
  | some r => reserveAtLeast intended par o (n + r.size) m

/-- reallocatable_array.hpp:193-217: `reserve(n)`; `capacity_` has its new value already when `ReallocInner` saves the old data. -/
def reserve (intended par : Bool) (o n : ℕ) (m : M β) : Except Err (M β) :=
  match m.arr o with
  | none => .error .fault
  | some r =>
    if r.capacity < n then
      if capLimit ≤ n then .error .abort else reallocInner intended par o n (setArr o { r with capacity := n } m)
    else .ok m

/-- reallocatable_array.hpp:421-449: `freeMem()` or `freeMem(1)`. -/
def freeArr (intended par : Bool) (o : ℕ) (m : M β) : Except Err (M β) :=
  match m.arr o with
  | none => .error .fault
  | some r =>
    if r.data = none then .ok m
    else
      match freeMem intended par r.id m with
      | .error x => .error x
      | .ok m1 =>
        match m1.arr o with
        | none => .error .fault
        | some r1 => .ok (setArr o { r1 with capacityOrg := r1.capacity, capacity := 0, size := 0, data := none, id := -1 } m1)

/-- reallocatable_array.hpp:165-179: the destructor, after which the object is gone. -/
def destroy (intended par : Bool) (o : ℕ) (m : M β) : Except Err (M β) :=
  match m.arr o with
  | none => .error .fault
  | some r =>
    match freeMem intended par r.id m with
    | .error x => .error x
    | .ok m1 => .ok { m1 with arr := Function.update m1.arr o none }

/-- The calls; `w` is `sizeof(T)`. -/
inductive Op (β : Type) where
  | construct (o w cap size : ℕ)
  | resize (o n : ℕ)
  | set (o i : ℕ) (v : List (Option β))
  | pushBack (o : ℕ) (v : List (Option β))
  | pushBackNoCheck (o : ℕ) (v : List (Option β))
  | clearSize (o : ℕ)
  | reserveAtLeast (o n : ℕ)
  | reserveEmpty (o n : ℕ)
  | reserve (o n : ℕ)
  | freeArr (o : ℕ)
  | destroy (o : ℕ)

/-- One call. -/
def step (intended par : Bool) (m : M β) : Op β → Except Err (M β)
  | .construct o w cap size => construct par o w cap size m
  | .resize o n => resize intended par o n m
  | .set o i v => setElem o i v m
  | .pushBack o v => pushBack intended par o v m
  | .pushBackNoCheck o v => pushBackNoCheck o v m
  | .clearSize o => clearSize o m
  | .reserveAtLeast o n => reserveAtLeast intended par o n m
  | .reserveEmpty o n => reserveEmpty intended par o n m
  | .reserve o n => reserve intended par o n m
  | .freeArr o => freeArr intended par o m
  | .destroy o => destroy intended par o m

/-- A program: calls outside or inside of parallel regions. -/
def run (intended : Bool) (m : M β) : List (Bool × Op β) → Except Err (M β)
  | [] => .ok m
  | (par, op) :: ops =>
    match step intended par m op with
    | .error x => .error x
    | .ok m' => run intended m' ops

end Verif.MemPool
