import Verif.Model.Blocked

/-!
# Block sizes

`BlockSizeGenerator` (include/BlasBooster/Core/BlockSizeGenerator.h).  `std::set<size_t>` is modelled by the
list of its elements; `borders` and `equal_indices` are kept in increasing order, as a `std::set` iterates.
-/

namespace BB

variable {R : Type}

/-- `std::set<size_t>::insert`. -/
def setInsert (x : Nat) : List Nat → List Nat
  | [] => [x]
  | a :: l => if x < a then x :: a :: l else if x = a then a :: l else a :: setInsert x l

/-- `*(std::prev(s.lower_bound(x)))`: the largest element below `x`; undefined if there is none. -/
def setPrevLower (s : List Nat) (x : Nat) : Res Nat :=
  match (s.filter (fun a => decide (a < x))).getLast? with
  | some a => .ok a
  | none => .error .ub

/-- `*s.upper_bound(x)`: the smallest element above `x`; undefined if there is none. -/
def setUpper (s : List Nat) (x : Nat) : Res Nat :=
  match s.find? (fun a => decide (x < a)) with
  | some a => .ok a
  | none => .error .ub

/-- The variables `next_j, next_idx, next_left_idx, next_left, next_right` (BlockSizeGenerator.h:165). -/
structure Next where
  j : Nat
  idx : Nat
  leftIdx : Nat
  left : Nat
  right : Nat
  deriving DecidableEq, Repr

/-- The search for the next border (BlockSizeGenerator.h:163-182): one pass over `equal_indices`.  The state is
`largest_min` and the `next_*` variables, `none` as long as they are not assigned (they are declared
without initialiser). -/
def pickNext (mn : Nat) (order borders : List Nat) : List Nat → Nat × Option Next → Res (Nat × Option Next)
  | [], s => .ok s
  | j :: js, s => do
    let o ← vecRead order j
    let idx := o + 1
    let leftIdx ← setPrevLower borders idx
    let left := idx - leftIdx
    let up ← setUpper borders idx
    let right := up - idx
    if left < mn ∨ right < mn then pickNext mn order borders js s
    else if s.1 < min left right then
      pickNext mn order borders js (min left right, some ⟨j, idx, leftIdx, left, right⟩)
    else pickNext mn order borders js s

/-- The state of `get_block_size`: the sets `borders` and `large_blocks`. -/
structure BSState where
  borders : List Nat
  large : List Nat
  deriving DecidableEq, Repr

/-- One execution of lines 183-189: reading `next_*` that were never assigned is undefined. -/
def placeBorder (mx : Nat) (s : BSState) (nx : Next) : BSState :=
  let borders := setInsert nx.idx s.borders
  if nx.leftIdx ∈ s.large then
    let l1 := if nx.left ≤ mx then s.large.filter (· ≠ nx.leftIdx) else s.large
    let l2 := if mx < nx.right then setInsert nx.idx l1 else l1
    ⟨borders, l2⟩
  else ⟨borders, s.large⟩

/-- The loop over a group of equal detection values (BlockSizeGenerator.h:162-191).  `fuel` bounds the number of
iterations; every iteration erases one element of `equal`, so `equal.length` is enough. -/
def groupLoop (mn mx : Nat) (order : List Nat) : Nat → List Nat → BSState → Res BSState
  | 0, equal, s => if equal = [] then .ok s else .error .ub
  | fuel + 1, equal, s =>
    if equal = [] then .ok s
    else do
      let (_, nx) ← pickNext mn order s.borders equal (0, none)
      match nx with
      | none => .error .ub
      | some nx =>
        let s := placeBorder mx s nx
        if s.large = [] then .ok s
        else groupLoop mn mx order fuel (equal.filter (· ≠ nx.j)) s

/-- The positions following `i` with the same detection value as position `i` (BlockSizeGenerator.h:153-156). -/
def equalRun [DecidableEq R] (detect : List R) (order : List Nat) (i : Nat) : List Nat :=
  (List.range' (i + 1) (detect.length - (i + 1))).takeWhile (fun j =>
    decide ((order[i]?.bind (detect[·]?)) = (order[j]?.bind (detect[·]?))))

/-- The main loop (BlockSizeGenerator.h:149-193).  `fuel`: `i` grows in every iteration. -/
def bsLoop [DecidableEq R] (mn mx : Nat) (detect : List R) (order : List Nat) : Nat → Nat → BSState → Res BSState
  | 0, i, s => if i = detect.length then .ok s else .error .ub
  | fuel + 1, i, s =>
    if i = detect.length then .ok s
    else do
      let equal := i :: equalRun detect order i
      let s ← groupLoop mn mx order equal.length equal s
      if s.large = [] then .ok s
      else bsLoop mn mx detect order fuel (i + equal.length) s

/-- Differences of consecutive borders (BlockSizeGenerator.h:195-202). -/
def diffs : List Nat → List Nat
  | a :: b :: l => (b - a) :: diffs (b :: l)
  | _ => []

/-- `get_block_size` (BlockSizeGenerator.h:140-205).  `order` is the result of `sort_indices(detect)`
(BlockSizeGenerator.h:18-31); `std::sort` is not stable, so the theorems quantify over all results it may
have. -/
def getBlockSize [DecidableEq R] (mn mx : Nat) (detect : List R) (order : List Nat) : Res (List Nat) := do
  let s ← bsLoop mn mx detect order detect.length 0 ⟨setInsert 0 [detect.length + 1], [0]⟩
  return diffs s.borders

/-- The constructor of `BlockSizeGenerator` (BlockSizeGenerator.h:57-61). -/
def BlockSizeGenerator.mk? (mn mx : Nat) : Res (Nat × Nat) :=
  if mx < 2 * mn then .error (.throw "BlockSizeGenerator: max_block_size must be at least twice as large as min_block_size.")
  else .ok (mn, mx)

/-- `v[i] += x` for a `std::vector<T>`. -/
def vecAdd [Add R] (v : List R) (i : Nat) (x : R) : Res (List R) := do
  let a ← vecRead v i
  return v.set i (a + x)

/-- The differences of consecutive storage elements along a line (the inner loop, BlockSizeGenerator.h:123-127).
State: `iter1`, `row_detect`, `col_detect`; `iter2 = iter1 + 1` and `iter3 = iter1 + nbColumns` always. -/
def detectLine [AddGroup R] [Lattice R] (d : Buf R) (c i : Nat) (s : Nat × List R × List R) : Res (Nat × List R × List R) :=
  loopN (c - 1) (fun j (s : Nat × List R × List R) => do
    let x1 ← d.read s.1
    let x3 ← d.read (s.1 + c)
    let rd ← vecAdd s.2.1 i |x1 - x3|
    let x2 ← d.read (s.1 + 1)
    let cd ← vecAdd s.2.2 j |x1 - x2|
    return (s.1 + 1, rd, cd)) s

/-- `get_detection_arrays` (BlockSizeGenerator.h:107-138).  `ex` is the binary exponent computed by `frexp`
(`get_matrix_frexp`, :43-53), applied to every storage element.  Without rows or columns
`std::vector<T>(size_t(-1), 0.0)` throws. -/
def detectionArrays [AddGroup R] [Lattice R] (ex : R → R) (A : Dense R) : Res (List R × List R) := do
  let d : Buf R := A.data.map (Option.map ex)
  let r := A.dim.rows
  let c := A.dim.cols
  if r = 0 ∨ c = 0 then .error (.throw "std::length_error")
  else
    let (p, rd, cd) ← loopN (r - 1) (fun i (s : Nat × List R × List R) => do
      let (p, rd, cd) ← detectLine d c i s
      let x1 ← d.read p
      let x3 ← d.read (p + c)
      let rd ← vecAdd rd i |x1 - x3|
      return (p + 1, rd, cd)) (0, List.replicate (r - 1) 0, List.replicate (c - 1) 0)
    let (_, cd) ← loopN (c - 1) (fun j (s : Nat × List R) => do
      let x1 ← d.read s.1
      let x2 ← d.read (s.1 + 1)
      let cd ← vecAdd s.2 j |x1 - x2|
      return (s.1 + 1, cd)) (p, cd)
    return (rd, cd)

/-- `std::transform(u.begin(), u.end(), v.begin(), u.begin(), plus)`. -/
def transformInto (plus : R → R → R) : List R → List R → Res (List R)
  | [], _ => .ok []
  | _ :: _, [] => .error .ub
  | a :: u, b :: v => do return plus a b :: (← transformInto plus u v)

/-- `operator()` (BlockSizeGenerator.h:84-93).  `sort` is `sort_indices`. -/
def blockSizes [AddGroup R] [Lattice R] [DecidableEq R] (ex : R → R) (sort : List R → List Nat) (mn mx : Nat) (A : Dense R) :
    Res (List Nat × List Nat) := do
  if A.dim.rows ≤ mx ∧ A.dim.cols ≤ mx then return ([A.dim.rows], [A.dim.cols])
  else
    let (rd, cd) ← detectionArrays ex A
    return (← getBlockSize mn mx rd (sort rd), ← getBlockSize mn mx cd (sort cd))

/-- `matrix_matrix_mult` (BlockSizeGenerator.h:95-105).  `plus` is `std::plus<size_t>`, which converts its
arguments to `size_t`. -/
def blockSizesMult [AddGroup R] [Lattice R] [DecidableEq R] (ex : R → R) (plus : R → R → R) (sort : List R → List Nat) (mn mx : Nat) (A B : Dense R) :
    Res (List Nat × List Nat × List Nat) := do
  let (rdA, cdA) ← detectionArrays ex A
  let (rdB, cdB) ← detectionArrays ex B
  let cdA ← transformInto plus cdA rdB
  return (← getBlockSize mn mx rdA (sort rdA), ← getBlockSize mn mx cdA (sort cdA), ← getBlockSize mn mx cdB (sort cdB))

/-- The whole block pipeline of src/Benchmark/Action_blasbooster_block.h:27-55 (without the time measurement). -/
def blockPipeline [Field R] [LinearOrder R] (b : Build) (rnd ex : R → R) (plus : R → R → R) (sort : List R → List Nat)
    (t : Settings R) (mn mx : Nat) (A B : Dense R) : Res (Dense R) := do
  let (mn, mx) ← BlockSizeGenerator.mk? mn mx
  let (rs, ks, cs) ← blockSizesMult ex plus sort mn mx A B
  let BA ← Blocked.generate b rnd t A rs ks
  let BB ← Blocked.generate b rnd t B ks cs
  let C ← BA.mul BB
  C.toDense

end BB
