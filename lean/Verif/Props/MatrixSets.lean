import Verif.Props.Provider

/-!
# C57: the matrix sets of the benchmark
-/

namespace BB.Provider

attribute [local irreducible] sizeMod bandDiag bandSquare

variable {R : Type}

/-! ### Specification -/

/-- A matrix as a user thinks of it: a shape and its elements. -/
structure Spec (R : Type) where
  rows : Nat
  cols : Nat
  elem : Nat → Nat → R

/-- A stored matrix is the described one. -/
def Spec.Holds (s : Spec R) (A : Dense R) : Prop := A.Is s.rows s.cols s.elem

/-- The band matrix a user asks for with one dimension and one band width. -/
def bandSpec [Zero R] (value : R) (dim w : Nat) : Spec R := ⟨dim, dim, fun i j => if ((i : Int) - j).natAbs < w then value else 0⟩

/-- What one entry adds to the sets known so far (`sets`), as English: band entries append, for each dimension in order
and for each band width in order, a matrix; a file entry appends its matrix; a copy entry replaces the list by the list
of the source. -/
inductive Adds [Zero R] (name : String) (sets : String → Option (List (Spec R))) : Leaf R → Option (List (Spec R)) → Prop
  | bands (dims bands value) (hne : dims ≠ [] ∧ bands ≠ []) (hw : ∀ d ∈ dims, d < 2 ^ 64 ∧ ∀ w ∈ bands, w ≤ d + 1) :
      Adds name sets (.diagonalBand dims bands value)
        (some ((sets name).getD [] ++ (dims.flatMap fun d => bands.map fun w => bandSpec value d w)))
  | noBands (dims bands value) (he : dims = [] ∨ bands = []) : Adds name sets (.diagonalBand dims bands value) (sets name)
  | copy (source l) (hs : source ≠ name) (hl : sets source = some l) : Adds name sets (.equalTo source) (some l)
  | file (A : Dense R) (s : Spec R) (h : s.Holds A) : Adds name sets (.file (.ok A)) (some ((sets name).getD [] ++ [s]))

/-- The sets after a configuration, entry by entry; `name` is the set the entry belongs to. -/
inductive Configures [Zero R] : List (String × Leaf R) → (String → Option (List (Spec R))) → Prop
  | nil : Configures [] (fun _ => none)
  | snoc {es sets name l new} (h : Configures es sets) (ha : Adds name sets l new) :
      Configures (es ++ [(name, l)]) (fun n => if n = name then new else sets n)

/-- The entries of a configuration tree in order. -/
def entries (tree : List (String × List (Leaf R))) : List (String × Leaf R) := tree.flatMap fun (n, ls) => ls.map fun l => (n, l)

/-- Sets of stored matrices match sets of described ones. -/
def Matches (S : Sets R) (sets : String → Option (List (Spec R))) : Prop :=
  ∀ n, (S n = none ∧ sets n = none) ∨ ∃ L l, S n = some L ∧ sets n = some l ∧ List.Forall₂ Spec.Holds l L

/-! ### Proofs -/

theorem pushBands_sat [Zero R] (asserts : Bool) (name : String) (dim : Nat) (value : R) (ws : List Nat) (hw : ∀ w ∈ ws, w ≤ dim + 1)
    (hd : dim < 2 ^ 64) (S : Sets R) :
    Sat (pushBands asserts name dim value ws S) (fun S' => (ws = [] → S' = S) ∧ (∀ n, n ≠ name → S' n = S n) ∧
      (ws ≠ [] → ∃ L, S' name = some (S.at' name ++ L) ∧ List.Forall₂ Spec.Holds (ws.map fun w => bandSpec value dim w) L)) := by
  induction ws generalizing S with
  | nil => exact Sat.ok ⟨fun _ => rfl, fun _ _ => rfl, fun h => absurd rfl h⟩
  | cons w ws ih =>
    obtain ⟨A, hA, hi⟩ := C54_band asserts dim w value (hw w (by simp)) hd
    unfold pushBands
    rw [hA, bind_ok']
    refine Sat.mono (ih (fun x hx => hw x (by simp [hx])) _) ?_
    rintro S' ⟨h0, h1, h2⟩
    refine ⟨by simp, fun n hn => ?_, fun _ => ?_⟩
    · rw [h1 n hn]; simp [Sets.put, hn]
    · by_cases he : ws = []
      · refine ⟨[A], ?_, ?_⟩
        · rw [h0 he]; simp [Sets.put]
        · subst he; exact .cons hi .nil
      · obtain ⟨L, hL, hf⟩ := h2 he
        refine ⟨A :: L, ?_, .cons hi hf⟩
        rw [hL]; simp [Sets.at', Sets.put]

theorem forall2_append {α β : Type} {P : α → β → Prop} {a a' : List α} {b b' : List β} (h : List.Forall₂ P a b) (h' : List.Forall₂ P a' b') :
    List.Forall₂ P (a ++ a') (b ++ b') := by
  induction h with
  | nil => exact h'
  | cons h _ ih => exact .cons h ih

theorem pushDims_sat [Zero R] (asserts : Bool) (name : String) (bands : List Nat) (value : R) (ds : List Nat)
    (hw : ∀ d ∈ ds, d < 2 ^ 64 ∧ ∀ w ∈ bands, w ≤ d + 1) (S : Sets R) :
    Sat (pushDims asserts name bands value ds S) (fun S' => ((ds = [] ∨ bands = []) → S' = S) ∧ (∀ n, n ≠ name → S' n = S n) ∧
      (ds ≠ [] → bands ≠ [] → ∃ L, S' name = some (S.at' name ++ L) ∧
        List.Forall₂ Spec.Holds (ds.flatMap fun d => bands.map fun w => bandSpec value d w) L)) := by
  induction ds generalizing S with
  | nil => exact Sat.ok ⟨fun _ => rfl, fun _ _ => rfl, fun h => absurd rfl h⟩
  | cons d ds ih =>
    unfold pushDims
    refine Sat.bind (pushBands_sat asserts name d value bands (hw d (by simp)).2 (hw d (by simp)).1 S) ?_
    rintro S1 ⟨a0, a1, a2⟩
    refine Sat.mono (ih (fun x hx => hw x (by simp [hx])) S1) ?_
    rintro S' ⟨h0, h1, h2⟩
    refine ⟨?_, fun n hn => (h1 n hn).trans (a1 n hn), fun _ hb => ?_⟩
    · rintro (h | h)
      · cases h
      · rw [h0 (.inr h), a0 h]
    · obtain ⟨L1, hL1, hf1⟩ := a2 hb
      by_cases he : ds = []
      · refine ⟨L1, ?_, ?_⟩
        · rw [h0 (.inl he), hL1]
        · subst he; simpa using hf1
      · obtain ⟨L, hL, hf⟩ := h2 he hb
        refine ⟨L1 ++ L, ?_, ?_⟩
        · rw [hL]; simp [Sets.at', hL1]
        · simpa using forall2_append hf1 hf

theorem Matches.at' {S : Sets R} {sets : String → Option (List (Spec R))} (h : Matches S sets) (n : String) :
    List.Forall₂ Spec.Holds ((sets n).getD []) (S.at' n) := by
  rcases h n with ⟨h1, h2⟩ | ⟨L, l, h1, h2, h3⟩
  · simp [Sets.at', h1, h2]
  · simpa [Sets.at', h1, h2] using h3

theorem leaf_sat [Zero R] (asserts : Bool) {name : String} {S : Sets R} {sets : String → Option (List (Spec R))} {l : Leaf R}
    {new : Option (List (Spec R))} (hm : Matches S sets) (ha : Adds name sets l new) :
    Sat (leaf asserts name S l) (fun S' => Matches S' (fun n => if n = name then new else sets n)) := by
  cases ha with
  | bands dims bands value hne hw =>
    unfold leaf
    refine Sat.mono (pushDims_sat asserts name bands value dims hw S) ?_
    rintro S' ⟨-, h1, h2⟩ n
    by_cases hn : n = name
    · subst hn
      obtain ⟨L, hL, hf⟩ := h2 hne.1 hne.2
      exact .inr ⟨_, _, hL, by simp, forall2_append (hm.at' n) hf⟩
    · simp only [if_neg hn, h1 n hn]; exact hm n
  | noBands dims bands value he =>
    unfold leaf
    have : pushDims asserts name bands value dims S = .ok S := by
      rcases he with rfl | rfl
      · rfl
      · induction dims with
        | nil => rfl
        | cons d ds ih => unfold pushDims pushBands; rw [bind_ok']; exact ih
    dsimp only
    rw [this]
    refine Sat.ok ?_
    intro n
    by_cases hn : n = name
    · subst hn; simpa using hm n
    · simpa [hn] using hm n
  | copy source l hs hl =>
    unfold leaf
    rcases hm source with ⟨-, h2⟩ | ⟨L, l', h1, h2, h3⟩
    · rw [hl] at h2; cases h2
    · rw [hl] at h2
      obtain rfl := Option.some.inj h2
      simp only [h1, if_neg hs]
      refine Sat.ok ?_
      intro n
      by_cases hn : n = name
      · exact .inr ⟨L, l, by simp [Sets.put, hn], by simp [hn], h3⟩
      · simpa [Sets.put, hn] using hm n
  | file A s h =>
    unfold leaf
    dsimp only
    rw [bind_ok']
    refine Sat.pure ?_
    intro n
    by_cases hn : n = name
    · subst hn
      exact .inr ⟨_, _, by simp [Sets.put], by simp, forall2_append (hm.at' n) (.cons h .nil)⟩
    · simpa [Sets.put, hn] using hm n

/-- The constructor as one loop over the entries. -/
def run [Zero R] (asserts : Bool) : Sets R → List (String × Leaf R) → Res (Sets R)
  | s, [] => .ok s
  | s, (n, l) :: es => do run asserts (← leaf asserts n s l) es

theorem run_append [Zero R] (asserts : Bool) (S : Sets R) (a b : List (String × Leaf R)) :
    run asserts S (a ++ b) = (run asserts S a >>= fun S' => run asserts S' b) := by
  induction a generalizing S with
  | nil => rfl
  | cons e a ih =>
    obtain ⟨n, l⟩ := e
    simp only [List.cons_append, run]
    cases leaf asserts n S l with
    | error e => rfl
    | ok S' => exact ih S'

theorem leaves_eq [Zero R] (asserts : Bool) (n : String) (S : Sets R) (ls : List (Leaf R)) :
    leaves asserts n S ls = run asserts S (ls.map fun l => (n, l)) := by
  induction ls generalizing S with
  | nil => rfl
  | cons l ls ih =>
    simp only [leaves, List.map_cons, run]
    cases leaf asserts n S l with
    | error e => rfl
    | ok S' => exact ih S'

theorem build_eq [Zero R] (asserts : Bool) (S : Sets R) (tree : List (String × List (Leaf R))) :
    build asserts S tree = run asserts S (entries tree) := by
  induction tree generalizing S with
  | nil => rfl
  | cons e tree ih =>
    obtain ⟨n, ls⟩ := e
    simp only [build, entries, List.flatMap_cons]
    rw [run_append, leaves_eq]
    cases run asserts S (ls.map fun l => (n, l)) with
    | error e => rfl
    | ok S' => exact ih S'

/-- C57: for every configuration whose entries are all understood, the constructor succeeds and every named set holds
exactly the described matrices in the described order; names that are not configured have no set.  (Outside the claim: unknown
types, copies of a set to itself, unknown names: `C70_unknown_type_is_ignored`, `C70_self_copy_is_ub`,
`C70_get_unknown_is_ub`.) -/
theorem C57_sets [Zero R] (asserts : Bool) (tree : List (String × List (Leaf R))) (sets : String → Option (List (Spec R)))
    (h : Configures (entries tree) sets) :
    ∃ S, provider asserts tree = .ok S ∧ Matches S sets ∧
      ∀ n l, sets n = some l → ∃ L, S.get n = .ok L ∧ L.length = l.length ∧ List.Forall₂ Spec.Holds l L := by
  have key : ∀ es (sets : String → Option (List (Spec R))), Configures es sets →
      Sat (run asserts (fun _ => none) es) (fun S => Matches S sets) := by
    intro es sets h
    induction h with
    | nil => exact Sat.ok (fun n => .inl ⟨rfl, rfl⟩)
    | snoc h ha ih =>
      rw [run_append]
      refine Sat.bind ih ?_
      intro S hS
      simp only [run]
      refine Sat.bind (leaf_sat asserts hS ha) ?_
      intro S' hS'
      exact Sat.ok hS'
  obtain ⟨S, hS, hm⟩ := key _ _ h
  refine ⟨S, ?_, hm, ?_⟩
  · unfold provider; rw [build_eq]; exact hS
  · intro n l hl
    rcases hm n with ⟨-, h2⟩ | ⟨L, l', h1, h2, h3⟩
    · rw [hl] at h2; cases h2
    · rw [hl] at h2
      obtain rfl := Option.some.inj h2
      exact ⟨L, by simp [Sets.get, h1], h3.length_eq.symm, h3⟩

/-- C57: a copy of a set that was not configured before throws, whatever follows. -/
theorem C57_unknown_source_throws [Zero R] (asserts : Bool) (tree rest : List (String × List (Leaf R))) (name source : String) (ls : List (Leaf R))
    (S : Sets R) (hS : provider asserts tree = .ok S) (hs : S source = none) :
    provider asserts (tree ++ (name, .equalTo source :: ls) :: rest) = .error (.throw "out_of_range") := by
  unfold provider at *
  rw [build_eq] at *
  have : entries (tree ++ (name, .equalTo source :: ls) :: rest) = entries tree ++ (name, .equalTo source) :: ((ls.map fun l => (name, l)) ++ entries rest) := by
    simp [entries]
  rw [this, run_append, hS, bind_ok']
  simp only [run, leaf, hs]
  rfl

/-- C70, negative: an entry of an unknown type is not reported; it is as if it were not there, for every configuration
around it.  (The exception object is constructed but not thrown.) -/
theorem C70_unknown_type_is_ignored [Zero R] (asserts : Bool) (tree rest : List (String × List (Leaf R))) (name type : String) (ls ls' : List (Leaf R)) :
    provider asserts (tree ++ (name, ls ++ .unknown type :: ls') :: rest) = provider asserts (tree ++ (name, ls ++ ls') :: rest) := by
  unfold provider
  rw [build_eq, build_eq]
  have : ∀ ks : List (Leaf R), entries (tree ++ (name, ks) :: rest) = entries tree ++ ((ks.map fun l => (name, l)) ++ entries rest) := by
    intro ks; simp [entries]
  rw [this, this, run_append, run_append]
  congr 1; funext S
  simp only [List.map_append, List.map_cons, List.append_assoc]
  rw [run_append, run_append]
  rfl

/-- C70, negative: copying a set to itself is undefined behaviour (iterators into the vector that is assigned). -/
theorem C70_self_copy_is_ub [Zero R] (asserts : Bool) (tree rest : List (String × List (Leaf R))) (name : String) (ls : List (Leaf R))
    (S : Sets R) (hS : provider asserts tree = .ok S) (L : List (Dense R)) (hs : S name = some L) :
    provider asserts (tree ++ (name, .equalTo name :: ls) :: rest) = .error .ub := by
  unfold provider at *
  rw [build_eq] at *
  have : entries (tree ++ (name, .equalTo name :: ls) :: rest) = entries tree ++ (name, .equalTo name) :: ((ls.map fun l => (name, l)) ++ entries rest) := by
    simp [entries]
  rw [this, run_append, hS, bind_ok']
  simp only [run, leaf, hs, if_true]
  rfl

/-- C70, negative: asking for a set that no entry configures dereferences the end iterator. -/
theorem C70_get_unknown_is_ub [Zero R] (asserts : Bool) (tree : List (String × List (Leaf R))) (sets : String → Option (List (Spec R)))
    (h : Configures (entries tree) sets) (name : String) (hn : ∀ l, (name, l) ∉ entries tree) :
    ∃ S, provider asserts tree = .ok S ∧ S.get name = .error .ub := by
  obtain ⟨S, hS, hm, -⟩ := C57_sets asserts tree sets h
  refine ⟨S, hS, ?_⟩
  have : ∀ es (sets : String → Option (List (Spec R))), Configures es sets → (∀ l, (name, l) ∉ es) → sets name = none := by
    intro es sets h
    induction h with
    | nil => intro _; rfl
    | @snoc es sets n l new h ha ih =>
      intro hn
      have h1 : name ≠ n := by rintro rfl; exact hn l (by simp)
      simp only [if_neg h1]
      exact ih (fun l hl => hn l (by simp [hl]))
  have hs := this _ _ h hn
  rcases hm name with ⟨h1, -⟩ | ⟨L, l, -, h2, -⟩
  · simp [Sets.get, h1]
  · rw [hs] at h2; cases h2

/-- Non-vacuity: two dimensions, two band widths, and a copy. -/
example : ∃ S, provider true [("a", [.diagonalBand [3, 5] [1, 2] (7 : Int)]), ("b", [.equalTo "a"])] = .ok S ∧
    ∃ L, S.get "b" = .ok L ∧ List.Forall₂ Spec.Holds [bandSpec 7 3 1, bandSpec 7 3 2, bandSpec 7 5 1, bandSpec 7 5 2] L := by
  have c1 := Configures.snoc (R := Int) .nil (Adds.bands (name := "a") (sets := fun _ => none) [3, 5] [1, 2] 7 (by simp)
    (by intro d hd; simp at hd; rcases hd with rfl | rfl <;> refine ⟨by decide, ?_⟩ <;> intro w hw <;> simp at hw <;> omega))
  have c2 := Configures.snoc (R := Int) c1 (Adds.copy (name := "b") "a" _ (by decide) rfl)
  obtain ⟨S, hS, -, hg⟩ := C57_sets true [("a", [.diagonalBand [3, 5] [1, 2] (7 : Int)]), ("b", [.equalTo "a"])] _ c2
  obtain ⟨L, h1, -, h2⟩ := hg "b" _ rfl
  exact ⟨S, hS, L, h1, h2⟩

end BB.Provider
