import Verif.Model.Dict

/-! Model of `rainbow/util/heap.py` and `rainbow/util/timer.py`. -/

namespace Verif

/-- An item `(value, idx)`; the value is a Python object, known by its identity `obj : α` (what
`is` compares); `val` gives its number (objects are immutable, so the number is fixed). -/
structure HItem (α ι : Type) where
  obj : α
  idx : ι

/-- Python's tuple comparison `(value, idx) <= (value', idx')`. -/
def HItem.le {α ι : Type} [LinearOrder ι] (val : α → ℝ) (a b : HItem α ι) : Prop :=
  val a.obj < val b.obj ∨ (val a.obj = val b.obj ∧ a.idx ≤ b.idx)

/-- `heapq` by its contract: `heappush` adds an item to the bag, `heappop` removes a least item. -/
structure HeapQ (α ι : Type) [LinearOrder ι] (val : α → ℝ) where
  heappush : List (HItem α ι) → HItem α ι → List (HItem α ι)
  heappop : List (HItem α ι) → HItem α ι × List (HItem α ι)
  push_perm : ∀ l x, (heappush l x).Perm (x :: l)
  pop_perm : ∀ l, l ≠ [] → ((heappop l).1 :: (heappop l).2).Perm l
  pop_le : ∀ l, l ≠ [] → ∀ y ∈ l, HItem.le val (heappop l).1 y

/-- heap.py:4-8 `Heap`: `_heap` and `_finder`. -/
structure Heap (α ι : Type) where
  heap : List (HItem α ι)
  finder : Dict ι (HItem α ι)

namespace Heap
variable {α ι : Type} [LinearOrder ι] [DecidableEq α] {val : α → ℝ} (hq : HeapQ α ι val)

/-- heap.py:5-8 `__init__`. -/
def init : Heap α ι := ⟨[], Dict.empty⟩

/-- heap.py:13-14 `__bool__`. -/
def truthy (h : Heap α ι) : Bool := decide (h.finder.len > 0)

/-- heap.py:16-21 `push`. -/
def push (h : Heap α ι) (idx : ι) (value : α) : Heap α ι :=
  let item := ⟨value, idx⟩
  ⟨hq.heappush h.heap item, h.finder.setItem idx item⟩

/-- heap.py:23-36 `pop`: the while loop; `none` is Python's None. -/
def pop (heap : List (HItem α ι)) (finder : Dict ι (HItem α ι)) : Option ι × Heap α ι :=
  if hne : heap = [] then (none, ⟨heap, finder⟩)
  else
    let item := (hq.heappop heap).1
    let rest := (hq.heappop heap).2
    match finder.get? item.idx with
    | none => pop rest finder
    | some last => if item.obj ≠ last.obj then pop rest finder
        else (some item.idx, ⟨rest, finder.delItem item.idx⟩)
termination_by heap.length
decreasing_by
  all_goals
    have := (hq.pop_perm heap hne).length_eq
    simp at this
    omega

/-- heap.py:38-39 `update`. -/
def update (h : Heap α ι) (idx : ι) (new_value : α) : Heap α ι := push hq h idx new_value

end Heap

/-- timer.py:4-11 `Timer` (name and digits are only for printing). -/
structure Timer where
  value : ℝ
  accumulated : ℝ
  tic : Option ℝ
  toc : Option ℝ

namespace Timer

/-- timer.py:5-11 `__init__`. -/
def init : Timer := ⟨0, 0, none, none⟩

/-- timer.py:13-15 `start`; `now` is the reading of `time.perf_counter()`. -/
def start (t : Timer) (now : ℝ) : Timer := { t with tic := some now, toc := none }

/-- timer.py:17-23 `end`. -/
def «end» (t : Timer) (now : ℝ) : Except PyErr Timer :=
  match t.tic with
  | none => .error .runtimeError
  | some tic =>
    let value := now - tic
    .ok { value := value, accumulated := t.accumulated + value, tic := none, toc := some now }

/-- timer.py:25-27 `elapsed`. -/
def elapsed (t : Timer) : ℝ := t.value
/-- timer.py:29-31 `total`. -/
def total (t : Timer) : ℝ := t.accumulated

end Timer
end Verif
