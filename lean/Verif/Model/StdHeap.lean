import Verif.Model.Centers
/-!
# Model of `std::priority_queue` (binary heap)

The queue of src/math_utils.cpp:110-121 is a `std::priority_queue` over a `std::vector`.  The C++ standard leaves open in which order
equal elements come out.  The model here is that of the GNU library (`push_heap`, `pop_heap` of bits/stl_heap.h): a binary heap in
which the child numbers of `i` are `2 i + 1` and `2 i + 2`.
-/

namespace Grann

variable {α : Type} [Inhabited α]

/-- `__push_heap` (GNU, bits/stl_heap.h): moves the hole up past smaller elements and puts `v` there.  `fuel` is at least `hole`. -/
def siftUp (less : α → α → Bool) (v : α) : Nat → List α → Nat → List α
  | 0, l, hole => l.set hole v
  | fuel + 1, l, hole =>
    if hole = 0 then l.set hole v
    else
      let p := (hole - 1) / 2
      if less (l.getD p default) v then siftUp less v fuel (l.set hole (l.getD p default)) p
      else l.set hole v

/-- `priority_queue::push`: `push_back`, then `push_heap`. -/
def heapPush (less : α → α → Bool) (l : List α) (v : α) : List α :=
  siftUp less v l.length (l ++ [v]) l.length

/-- The first part of `__adjust_heap` (GNU, bits/stl_heap.h): the hole moves down to a leaf, the larger child moves up (the right one if
none is larger).  `fuel` is at least the length. -/
def holeDown (less : α → α → Bool) : Nat → List α → Nat → List α × Nat
  | 0, l, hole => (l, hole)
  | fuel + 1, l, hole =>
    if hole < (l.length - 1) / 2 then
      let r := 2 * (hole + 1)
      let s := if less (l.getD r default) (l.getD (r - 1) default) then r - 1 else r
      holeDown less fuel (l.set hole (l.getD s default)) s
    else if l.length % 2 = 0 ∧ 2 ≤ l.length ∧ hole = (l.length - 2) / 2 then
      let s := 2 * (hole + 1) - 1
      (l.set hole (l.getD s default), s)
    else (l, hole)

/-- `priority_queue::pop`: `pop_heap` puts the last element into the heap of the others, in place of the first, then `pop_back`. -/
def heapPop (less : α → α → Bool) (l : List α) : List α :=
  let v := l.getD (l.length - 1) default
  let l' := l.dropLast
  if l' = [] then []
  else
    let (m, hole) := holeDown less l'.length l' 0
    siftUp less v hole m hole

/-- The elements in the order in which they come out: `top` and `pop` as often as there are elements. -/
def heapDrain (less : α → α → Bool) : Nat → List α → List α
  | 0, _ => []
  | fuel + 1, l => if l = [] then [] else l.getD 0 default :: heapDrain less fuel (heapPop less l)

/-- The order in which the queue of src/math_utils.cpp:110-121 yields the centres: all are pushed in order, with the negated distance as
priority.  `-x < -y` holds for the same floats as `y < x`. -/
def gnuPops (row : List F32) : List Nat :=
  let less := fun i j => (row.getD j F32.zero).lt (row.getD i F32.zero)
  heapDrain less row.length ((List.range row.length).foldl (heapPush less) [])

end Grann
