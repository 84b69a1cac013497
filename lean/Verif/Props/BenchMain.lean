import Std.Data.String.ToNat
import Verif.Model.BenchMain
import Verif.Props.Bench
import Verif.Props.MatrixSets
import Verif.Props.Files
import Verif.Lemmas.StorageLeak

/-! C129: the benchmark program from its settings to its table and files. -/

namespace BB.BenchMain
open Bench (With Routines Action Computes)
open Files (Disk)
variable {R F : Type}

def Col (S : Provider.Sets R) : Prop := ∀ n L, S n = some L → ∀ A ∈ L, A.ori = .col

theorem loopN_keeps {σ : Type} {P : σ → Prop} {f : Nat → σ → Res σ} (h : ∀ i a b, P a → f i a = .ok b → P b) (n : Nat) {a b : σ} (ha : P a)
    (e : loopN n f a = .ok b) : P b := by
  induction n generalizing b with
  | zero => cases e; exact ha
  | succ n ih =>
    rw [loopN] at e
    obtain ⟨c, h1, h2⟩ := Own.bind_eq_ok e
    exact h _ _ _ (ih h1) h2

theorem setElem_ori {asserts : Bool} {A B : Dense R} {i j : Nat} {x : R} (e : Provider.setElem asserts A i j x = .ok B) : B.ori = A.ori := by
  unfold Provider.setElem at e
  split at e
  · unfold Dense.set at e
    obtain ⟨d, -, h⟩ := Own.bind_eq_ok e
    cases h; rfl
  · obtain ⟨d, -, h⟩ := Own.bind_eq_ok e
    cases h; rfl

theorem bandSquare_col [Zero R] {asserts : Bool} {dim w : Nat} {value : R} {A : Dense R} (e : Provider.bandSquare asserts dim w value = .ok A) : A.ori = .col := by
  unfold Provider.bandSquare Provider.bandMatrix at e
  rw [Dense.fillAll_ok, bind_ok'] at e
  refine loopN_keeps (P := fun A : Dense R => A.ori = .col) (fun b A B hA e => ?_) w rfl e
  refine loopN_keeps (P := fun A : Dense R => A.ori = .col) (fun i A B hA e => ?_) _ hA e
  obtain ⟨C, h1, h2⟩ := Own.bind_eq_ok e
  rw [setElem_ori h2, setElem_ori h1, hA]

theorem ofFile_col' {d : Disk R} {p : String} {A : Dense R} (e : Files.ofFile d p = .ok A) : A.ori = .col := by
  unfold Files.ofFile at e
  split at e
  · cases e
  · cases e
  · split at e
    · rename_i B u h
      cases e
      unfold FileIO.readWindow at h
      dsimp only at h
      split at h
      · cases h
      · split at h
        · cases h
        · split at h
          · cases h
          · split at h
            · cases h; rfl
            · cases h
    · cases e

theorem pushBands_col [Zero R] {asserts : Bool} {name : String} {dim : Nat} {value : R} {ws : List Nat} {S S' : Provider.Sets R} (h : Col S)
    (e : Provider.pushBands asserts name dim value ws S = .ok S') : Col S' := by
  induction ws generalizing S with
  | nil => cases e; exact h
  | cons w ws ih =>
    rw [Provider.pushBands] at e
    obtain ⟨A, h1, h2⟩ := Own.bind_eq_ok e
    refine ih (fun n L hL B hB => ?_) h2
    unfold Provider.Sets.put at hL
    split at hL
    · cases hL
      rcases List.mem_append.1 hB with hB | hB
      · unfold Provider.Sets.at' at hB
        cases hs : S name with
        | none => rw [hs] at hB; simp at hB
        | some L => rw [hs] at hB; exact h _ _ hs _ hB
      · rw [List.mem_singleton.1 hB]; exact bandSquare_col h1
    · exact h _ _ hL _ hB

theorem pushDims_col [Zero R] {asserts : Bool} {name : String} {bands : List Nat} {value : R} {ds : List Nat} {S S' : Provider.Sets R} (h : Col S)
    (e : Provider.pushDims asserts name bands value ds S = .ok S') : Col S' := by
  induction ds generalizing S with
  | nil => cases e; exact h
  | cons d ds ih =>
    rw [Provider.pushDims] at e
    obtain ⟨A, h1, h2⟩ := Own.bind_eq_ok e
    exact ih (pushBands_col h h1) h2

theorem leaf_col [Zero R] {asserts : Bool} {name : String} {d : Disk R} {x : Entry R} {S S' : Provider.Sets R} (h : Col S)
    (e : Provider.leaf asserts name S (x.leaf d) = .ok S') : Col S' := by
  cases x with
  | band dims bands value => exact pushDims_col h e
  | unknown t => cases e; exact h
  | equalTo source =>
    simp only [Entry.leaf, Provider.leaf] at e
    split at e
    · cases e
    · rename_i l hl
      split at e
      · cases e
      · cases e
        intro n L hL B hB
        unfold Provider.Sets.put at hL
        split at hL
        · cases hL; exact h _ _ hl _ hB
        · exact h _ _ hL _ hB
  | file p =>
    simp only [Entry.leaf, Provider.leaf] at e
    obtain ⟨A, h1, h2⟩ := Own.bind_eq_ok e
    cases h2
    intro n L hL B hB
    unfold Provider.Sets.put at hL
    split at hL
    · cases hL
      rcases List.mem_append.1 hB with hB | hB
      · unfold Provider.Sets.at' at hB
        cases hs : S name with
        | none => rw [hs] at hB; simp at hB
        | some L => rw [hs] at hB; exact h _ _ hs _ hB
      · rw [List.mem_singleton.1 hB]; exact ofFile_col' h1
    · exact h _ _ hL _ hB

theorem leaves_col [Zero R] {asserts : Bool} {name : String} {d : Disk R} {es : List (Entry R)} {S S' : Provider.Sets R} (h : Col S)
    (e : Provider.leaves asserts name S (es.map (Entry.leaf d)) = .ok S') : Col S' := by
  induction es generalizing S with
  | nil => cases e; exact h
  | cons x es ih =>
    rw [List.map_cons, Provider.leaves] at e
    obtain ⟨A, h1, h2⟩ := Own.bind_eq_ok e
    exact ih (leaf_col h h1) h2

theorem provider_col [Zero R] {asserts : Bool} {d : Disk R} {tree : List (String × List (Entry R))} {S : Provider.Sets R}
    (e : Provider.provider asserts (resolve d tree) = .ok S) : Col S := by
  have key : ∀ (tree : List (String × List (Entry R))) (S S' : Provider.Sets R), Col S → Provider.build asserts S (resolve d tree) = .ok S' → Col S' := by
    intro tree
    induction tree with
    | nil => intro S S' h e; cases e; exact h
    | cons x tree ih =>
      intro S S' h e
      obtain ⟨n, es⟩ := x
      simp only [resolve, List.map_cons] at e
      rw [Provider.build] at e
      obtain ⟨A, h1, h2⟩ := Own.bind_eq_ok e
      exact ih _ _ (leaves_col h h1) h2
  exact key tree _ _ (fun n L hL => by cases hL) e

/-! ### The files -/

theorem diffName_inj {i j : Nat} (h : diffName i = diffName j) : i = j := by
  unfold diffName at h
  have h := congrArg String.toList h
  simp only [String.toList_append] at h
  have h := List.append_cancel_right h
  have h := List.append_cancel_left h
  exact Nat.repr_injective (String.toList_inj.1 h)

theorem store_holds {d : Disk R} {p : String} {A : Dense R} {r c : Nat} {f : Nat → Nat → R} (h : A.Is r c f) (ho : A.ori = .col) :
    ∃ l, FileIO.Holds l r c f ∧ store d p A.data = if d.writable p then { d with bin := fun q => if q = p then some l else d.bin q } else d := by
  obtain ⟨l, e, hl⟩ := Files.dump_holds h ho
  refine ⟨l, hl, ?_⟩
  rw [h.size, ← h.alloc] at e
  simp only [store, e]

theorem store_frame (d : Disk R) (p : String) (b : Buf R) :
    (store d p b).xml = d.xml ∧ (store d p b).writable = d.writable ∧ ∀ q, q ≠ p ∨ d.writable q = false → (store d p b).bin q = d.bin q := by
  unfold store
  split
  · split
    · rename_i h
      refine ⟨rfl, rfl, fun q hq => ?_⟩
      dsimp only
      rw [if_neg]
      rintro rfl
      rcases hq with hq | hq
      · exact hq rfl
      · rw [h] at hq; cases hq
    · exact ⟨rfl, rfl, fun _ _ => rfl⟩
  · exact ⟨rfl, rfl, fun _ _ => rfl⟩

theorem storeAll_frame (files : Nat → Option (Buf R)) (d : Disk R) (n : Nat) :
    (storeAll files d n).xml = d.xml ∧ (storeAll files d n).writable = d.writable ∧
      ∀ q, (∀ i, i < n → q ≠ diffName i) ∨ d.writable q = false → (storeAll files d n).bin q = d.bin q := by
  induction n with
  | zero => exact ⟨rfl, rfl, fun _ _ => rfl⟩
  | succ n ih =>
    obtain ⟨h1, h2, h3⟩ := ih
    rw [storeAll]
    split
    · rename_i b _
      obtain ⟨g1, g2, g3⟩ := store_frame (storeAll files d n) (diffName n) b
      refine ⟨g1.trans h1, g2.trans h2, fun q hq => ?_⟩
      rw [g3 q (by rw [h2]; exact hq.imp (fun h => h n (by omega)) id), h3 q (hq.imp (fun h i hi => h i (by omega)) id)]
    · exact ⟨h1, h2, fun q hq => h3 q (hq.imp (fun h i hi => h i (by omega)) id)⟩

theorem storeAll_none (files : Nat → Option (Buf R)) (d : Disk R) (n : Nat) (h : ∀ i, i < n → files i = none) : storeAll files d n = d := by
  induction n with
  | zero => rfl
  | succ n ih => rw [storeAll, h n (by omega)]; exact ih (fun i hi => h i (by omega))

theorem storeAll_holds (files : Nat → Option (Buf R)) (d : Disk R) (n i : Nat) (hi : i < n) {A : Dense R} {r c : Nat} {f : Nat → Nat → R}
    (h : A.Is r c f) (ho : A.ori = .col) (hf : files i = some A.data) (hw : d.writable (diffName i) = true) :
    ∃ l, (storeAll files d n).bin (diffName i) = some l ∧ FileIO.Holds l r c f := by
  induction n with
  | zero => omega
  | succ n ih =>
    rw [storeAll]
    rcases Nat.lt_succ_iff_lt_or_eq.1 hi with hi | rfl
    · obtain ⟨l, e, hl⟩ := ih hi
      refine ⟨l, ?_, hl⟩
      rw [← e]
      split
      · exact (store_frame _ _ _).2.2 _ (.inl fun h => absurd (diffName_inj h) (by omega))
      · rfl
    · obtain ⟨l, hl, e⟩ := store_holds (d := storeAll files d i) (p := diffName i) h ho
      rw [hf]
      dsimp only
      rw [e, (storeAll_frame files d i).2.1, if_pos hw]
      exact ⟨l, by simp, hl⟩


/-! ### The specification -/

open Provider (Spec Configures entries)

/-- What one entry adds to the sets known so far, given the files on the disk: band entries append a matrix for each dimension and each band
width in order; a copy replaces the list by that of the other set; a file appends the described window of the matrix that the data file holds
column by column. -/
inductive Adds (d : Disk ℝ) (name : String) (sets : String → Option (List (Spec ℝ))) : Entry ℝ → Option (List (Spec ℝ)) → Prop
  | bands (dims bands value) (hne : dims ≠ [] ∧ bands ≠ []) (hw : ∀ n ∈ dims, n < 2 ^ 64 ∧ ∀ w ∈ bands, w ≤ n + 1) :
      Adds d name sets (.band dims bands value)
        (some ((sets name).getD [] ++ (dims.flatMap fun n => bands.map fun w => ⟨n, n, fun i j => if ((i : Int) - j).natAbs < w then value else 0⟩)))
  | noBands (dims bands value) (he : dims = [] ∨ bands = []) : Adds d name sets (.band dims bands value) (sets name)
  | copy (source l) (hs : source ≠ name) (hl : sets source = some l) : Adds d name sets (.equalTo source) (some l)
  | file (path data : String) (s : FileIO.Settings) (l : List ℝ) (f : Nat → Nat → ℝ) (hx : d.xml path = some (some (s, data))) (hl : d.bin data = some l)
      (hf : FileIO.Holds l s.rowLD s.colLD f) (hfit : s.rowOffset + s.nbRows ≤ s.rowLD ∧ s.colOffset + s.nbCols ≤ s.colLD) (hsm : s.rowLD < 2 ^ 64 ∧ s.colLD < 2 ^ 64) :
      Adds d name sets (.file path) (some ((sets name).getD [] ++ [⟨s.nbRows, s.nbCols, fun i j => f (s.rowOffset + i) (s.colOffset + j)⟩]))

/-- The sets a configuration describes, entry by entry; each entry with the name of the set it belongs to. -/
inductive Describes (d : Disk ℝ) : List (String × Entry ℝ) → (String → Option (List (Spec ℝ))) → Prop
  | nil : Describes d [] (fun _ => none)
  | snoc {es sets name x new} (h : Describes d es sets) (ha : Adds d name sets x new) :
      Describes d (es ++ [(name, x)]) (fun n => if n = name then new else sets n)

/-- The entries of a configuration in order. -/
def inOrder (tree : List (String × List (Entry ℝ))) : List (String × Entry ℝ) := tree.flatMap fun (n, es) => es.map fun x => (n, x)

theorem configures {d : Disk ℝ} {tree : List (String × List (Entry ℝ))} {sets : String → Option (List (Spec ℝ))} (h : Describes d (inOrder tree) sets) :
    Configures (entries (resolve d tree)) sets := by
  have e : entries (resolve d tree) = (inOrder tree).map fun (n, x) => (n, x.leaf d) := by
    clear h
    unfold entries resolve inOrder
    rw [List.flatMap_map, List.map_flatMap]
    exact congrArg (fun g => List.flatMap g tree) (funext fun t => by simp [Function.comp_def])
  rw [e]
  generalize inOrder tree = es at h
  induction h with
  | nil => exact .nil
  | @snoc es sets name x new h ha ih =>
    rw [List.map_append, List.map_cons, List.map_nil]
    refine .snoc ih ?_
    cases ha with
    | bands dims bands value hne hw => exact .bands dims bands value hne hw
    | noBands dims bands value he => exact .noBands dims bands value he
    | copy source l hs hl => exact .copy source l hs hl
    | file path data s l f hx hl hf hfit hsm =>
      obtain ⟨B, e, hB⟩ := FileIO.C42_window s l f (Dense.empty .col) hfit hsm hf rfl
      have : Entry.leaf d (.file path) = .file (.ok B) := by simp only [Entry.leaf, Files.ofFile, hx, hl, e]
      rw [this]
      exact .file B _ hB

/-- The matrix the action `name` promises for the factors `A` and `B` (`Bench.promised`: the precision of the factors and of the sum). -/
def result [Semiring F] (rt : Routines ℝ F) (A B : Spec ℝ) (name : String) (x y : Nat) : ℝ :=
  (Bench.promised rt.toF rt.toD A.cols A.elem B.elem x y name).getD 0

/-- The configuration describes the pairs of matrices `la`, `lb` for the files on the disk, none of them too large for the interfaces, and
names actions of this build; if an action of Blaze is among them, Blaze accepts the matrices. -/
structure Valid (w : With) (rt : Routines ℝ F) (c : Config ℝ) (d : Disk ℝ) (la lb : List (Spec ℝ)) : Prop where
  sets : ∃ sets, Describes d (inOrder c.matrices) sets ∧ sets "A" = some la ∧ sets "B" = some lb
  pairs : la.length = lb.length
  nonempty : la ≠ []
  inner : ∀ (i : Nat) (A B : Spec ℝ), la[i]? = some A → lb[i]? = some B → A.cols = B.rows ∧ 0 < A.cols
  small : ∀ (i : Nat) (A B : Spec ℝ), la[i]? = some A → lb[i]? = some B → A.rows < 2 ^ 31 ∧ A.cols < 2 ^ 31 ∧ B.cols < 2 ^ 31
  actions : c.actions ≠ [] ∧ ∀ n ∈ c.actions, n ∈ Bench.available w
  blaze : (∃ n ∈ c.actions, n ∈ ["blaze_dgemm", "blaze_sgemm", "blaze_sdgemm", "blaze_dsgemm"]) → ∀ (i : Nat) (A : Spec ℝ), la[i]? = some A → Ext.Accepts rt.place A.rows A.cols

theorem provide_names [Semiring F] {w : With} {rt : Routines ℝ F} (block : Action ℝ) {reps : Nat} {names : List String}
    (hn : ∀ n ∈ names, n ∈ Bench.available w) :
    (Bench.provide w rt block reps names).map Action.name = names ∧
      ∀ (k : Nat) (a : Action ℝ), (Bench.provide w rt block reps names)[k]? = some a → ∃ n, names[k]? = some n ∧ Bench.make w rt block reps n = some a ∧ a.name = n := by
  induction names with
  | nil => exact ⟨rfl, by simp [Bench.provide]⟩
  | cons n ns ih =>
    obtain ⟨ih1, ih2⟩ := ih (fun m hm => hn m (by simp [hm]))
    have hx : ∃ a, Bench.make w rt block reps n = some a ∧ a.name = n := by
      obtain ⟨wo, wm, we⟩ := w
      have := hn n (by simp)
      simp only [Bench.available, List.mem_append] at this
      have hcase : (wo = true ∧ (n = "openblas_dgemm" ∨ n = "openblas_sgemm")) ∨ (wm = true ∧ (n = "intelmkl_dgemm" ∨ n = "intelmkl_sgemm")) ∨
          (we = true ∧ (n = "eigen_dgemm" ∨ n = "eigen_sgemm")) ∨
          n = "blaze_dgemm" ∨ n = "blaze_sgemm" ∨ n = "blaze_sdgemm" ∨ n = "blaze_dsgemm" ∨ n = "native_dense" := by
        cases wo <;> cases wm <;> cases we <;> simp at this ⊢ <;> tauto
      rcases hcase with ⟨rfl, rfl | rfl⟩ | ⟨rfl, rfl | rfl⟩ | ⟨rfl, rfl | rfl⟩ | rfl | rfl | rfl | rfl | rfl <;>
        simp [Bench.make, Bench.gemm, Bench.sgemm, Bench.eigen, Bench.eigenS, Bench.blaze, Bench.blazeS, Bench.blazeSD, Bench.blazeDS, Bench.native]
    obtain ⟨a, e1, e2⟩ := hx
    simp only [Bench.provide, e1, List.map_cons, e2, ih1]
    refine ⟨trivial, fun k b hb => ?_⟩
    cases k with
    | zero =>
      obtain rfl : a = b := by simpa using hb
      exact ⟨n, rfl, e1, e2⟩
    | succ k => simpa using ih2 k b (by simpa using hb)

/-- C129: for every valid configuration the program exits with 0 and prints one line per pair of matrices and action, pairs in the order of the
sets and actions in the order of the configuration.  Line (i,k) shows i, the name of action k, and the two norms of the difference of the
results of action k and action 0 – the products in the precision the names promise – for the matrices the configuration describes.  Without
`--diff` or with a single action no file changes; otherwise exactly the files `diff_0.dat`, … that can be written do, and hold the difference of the
last action and action 0.
(Missing: the differences of the actions between, `C83_diff_is_overwritten`; other names, `C83_unknown_action_is_ignored` and C82 for
"blasbooster_block"; configurations without set A or B, `C129_no_set_is_ub`; files that cannot be written, `C129_unwritable_is_silent`.) -/
theorem C129_table_partial [Semiring F] (asserts : Bool) (w : With) (rt : Routines ℝ F) (hrt : rt.Conforms) (block : Action ℝ) (reps : Nat) (hr : 0 < reps)
    (c : Config ℝ) (d : Disk ℝ) (la lb : List (Spec ℝ)) (h : Valid w rt c d la lb) :
    ∃ (d' : Disk ℝ) (T : List Bench.Row), main asserts w rt block reps c d = ⟨d', T, .ok 0⟩ ∧ T.length = la.length * c.actions.length ∧
      (∀ (i k : Nat) (A B : Spec ℝ) (first name : String), la[i]? = some A → lb[i]? = some B → c.actions[0]? = some first → c.actions[k]? = some name →
        ∃ row, T[i * c.actions.length + k]? = some row ∧ row.Shows i name A.rows B.cols (result rt A B name) (result rt A B first)) ∧
      d'.xml = d.xml ∧ d'.writable = d.writable ∧ (∀ q, (∀ i, i < la.length → q ≠ diffName i) ∨ d.writable q = false → d'.bin q = d.bin q) ∧
      (c.writeDiff = false ∨ c.actions.length = 1 → d' = d) ∧
      (∀ (i : Nat) (A B : Spec ℝ) (first last : String), la[i]? = some A → lb[i]? = some B → c.actions[0]? = some first → c.actions[c.actions.length - 1]? = some last →
        c.writeDiff = true → c.actions.length ≠ 1 → d.writable (diffName i) = true →
        ∃ l, d'.bin (diffName i) = some l ∧ FileIO.Holds l A.rows B.cols (fun x y => result rt A B last x y - result rt A B first x y)) := by
  obtain ⟨⟨sets, hconf, hA, hB⟩, hlen, hne, hin, hsm, ⟨hn0, hn⟩, hbl⟩ := h
  obtain ⟨S, eS, hS, -⟩ := Provider.C57_sets asserts (resolve d c.matrices) sets (configures hconf)
  have hcol := provider_col eS
  have get : ∀ n l, sets n = some l → ∃ L, S n = some L ∧ List.Forall₂ Spec.Holds l L ∧ ∀ A ∈ L, A.ori = .col := by
    intro n l hl
    rcases hS n with ⟨-, h⟩ | ⟨L, l', h1, h2, h3⟩
    · rw [hl] at h; cases h
    · rw [hl] at h2; cases h2; exact ⟨L, h1, h3, hcol n L h1⟩
  obtain ⟨LA, sA, fA, cA⟩ := get _ _ hA
  obtain ⟨LB, sB, fB, cB⟩ := get _ _ hB
  obtain ⟨hm1, hm2⟩ := provide_names (rt := rt) block (reps := reps) hn
  have hlA := fA.length_eq
  have hlB := fB.length_eq
  have hlen' : (Bench.provide w rt block reps c.actions).length = c.actions.length := by rw [← hm1, List.length_map, hm1]
  have hspec : ∀ {l : List (Spec ℝ)} {L : List (Dense ℝ)} {i : Nat} {A : Dense ℝ}, List.Forall₂ Spec.Holds l L → L[i]? = some A → ∃ s, l[i]? = some s ∧ s.Holds A := by
    intro l L i A hf hA
    obtain ⟨hi, hA⟩ := List.getElem?_eq_some_iff.1 hA
    have hi' : i < l.length := by rw [hf.length_eq]; exact hi
    refine ⟨l[i], List.getElem?_eq_getElem hi', ?_⟩
    rw [← hA]
    exact List.Forall₂.get hf hi' hi
  obtain ⟨first, hfirst⟩ : ∃ first, c.actions[0]? = some first := by
    cases hc : c.actions with
    | nil => exact absurd hc hn0
    | cons x l => exact ⟨x, rfl⟩
  let g : Nat → Nat → Nat → Nat → ℝ := fun i k x y =>
    match la[i]?, lb[i]?, c.actions[k]? with
    | some A, some B, some name => result rt A B name x y
    | _, _, _ => 0
  have hg : ∀ {i k A B name}, la[i]? = some A → lb[i]? = some B → c.actions[k]? = some name → g i k = result rt A B name := by
    intro i k A B name h1 h2 h3
    funext x y
    simp only [g, h1, h2, h3]
  generalize hacts : Bench.provide w rt block reps c.actions = acts at *
  cases acts with
  | nil =>
    rw [List.length_nil] at hlen'
    exact absurd (List.length_eq_zero_iff.1 hlen'.symm) hn0
  | cons a as =>
    have hK : as.length + 1 = c.actions.length := by simpa using hlen'
    obtain ⟨T, fs, e, h1, h2, h3, h4, h5⟩ := Bench.C83_table_partial c.writeDiff a as LA LB (fun i => (la[i]?.map Spec.rows).getD 0) (fun i => (lb[i]?.map Spec.cols).getD 0)
      g ⟨[], fun _ => none⟩ (by rintro rfl; exact hne (List.length_eq_zero_iff.1 hlA)) (by omega) (by
        intro i k A B act hA' hB' hact
        obtain ⟨sA', a1, a2⟩ := hspec fA hA'
        obtain ⟨sB', b1, b2⟩ := hspec fB hB'
        obtain ⟨name, n1, n2, n3⟩ := hm2 k act hact
        obtain ⟨i1, i2⟩ := hin i _ _ a1 b1
        obtain ⟨s1, s2, s3⟩ := hsm i _ _ a1 b1
        have b2' : B.Is sA'.cols sB'.cols sB'.elem := by rw [i1]; exact b2
        obtain ⟨act', h, e1, -, hc, hp⟩ := Bench.C82_actions_partial w rt hrt block reps hr name (hn name (List.mem_of_getElem? n1)) A B sA'.rows sA'.cols sB'.cols
          sA'.elem sB'.elem a2 b2' (cA A (List.mem_of_getElem? hA')) (cB B (List.mem_of_getElem? hB')) s1 s2 s3 i2
          (fun hb => hbl ⟨name, List.mem_of_getElem? n1, hb⟩ i _ a1)
        rw [n2] at e1
        cases e1
        rw [hg a1 b1 n1]
        simp only [a1, b1, Option.map_some, Option.getD_some]
        have : result rt sA' sB' name = h := by
          funext x y
          simp only [result, hp x y, Option.getD_some]
        rw [this]
        exact hc)
    have hrun : main asserts w rt block reps c d = ⟨storeAll fs d la.length, T, .ok 0⟩ := by
      simp only [main, eS, Bench.run, Provider.Sets.get, sA, sB, hacts, e, Provider.Sets.at', Option.getD_some, List.nil_append, status, hlA]
    obtain ⟨f1, f2, f3⟩ := storeAll_frame fs d la.length
    refine ⟨_, T, hrun, by rw [h1, hK, hlA], ?_, f1, f2, f3, ?_, ?_⟩
    · intro i k A B first' name hA' hB' hf hname
      have hi : i < LA.length := by rw [← hlA]; exact (List.getElem?_eq_some_iff.1 hA').1
      have hk : k < (a :: as).length := by
        have := (List.getElem?_eq_some_iff.1 hname).1
        simpa [hK] using this
      obtain ⟨row, r1, r2⟩ := h2 i k _ hi (List.getElem?_eq_getElem hk)
      rw [hK] at r1
      refine ⟨row, r1, ?_⟩
      obtain ⟨nm, n1, -, n3⟩ := hm2 k _ (List.getElem?_eq_getElem hk)
      rw [hname] at n1
      cases n1
      rw [n3, hg hA' hB' hname, hg hA' hB' hf] at r2
      simpa only [hA', hB', Option.map_some, Option.getD_some] using r2
    · intro hx
      have : fs = fun _ => none := h4 (hx.imp id fun h => List.length_eq_zero_iff.1 (by omega))
      exact storeAll_none _ _ _ (fun i _ => by rw [this])
    · intro i A B first' last hA' hB' hf hl hwd hne1 hwr
      have hi : i < la.length := (List.getElem?_eq_some_iff.1 hA').1
      obtain ⟨D, d1, d2, d3⟩ := h5 hwd (fun h => hne1 (by rw [← hK, h]; rfl)) i (by omega)
      have hk : as.length = c.actions.length - 1 := by omega
      rw [hk, hg hA' hB' hl, hg hA' hB' hf] at d3
      simp only [hA', hB', Option.map_some, Option.getD_some] at d3
      exact storeAll_holds fs d la.length i hi d3 d2 d1 hwr


/-- C129: a description of a file that was written – any window that fits – reads that window of the difference. -/
theorem C129_difference_read_back {d' : Disk ℝ} {i r c : Nat} {f : Nat → Nat → ℝ} {l : List ℝ} (hl : d'.bin (diffName i) = some l) (hf : FileIO.Holds l r c f)
    (xml : String) (s : FileIO.Settings) (hx : d'.xml xml = some (some (s, diffName i))) (hr : s.rowLD = r) (hc : s.colLD = c)
    (hfit : s.rowOffset + s.nbRows ≤ r ∧ s.colOffset + s.nbCols ≤ c) (hsm : r < 2 ^ 64 ∧ c < 2 ^ 64) :
    ∃ D, Files.ofFile d' xml = .ok D ∧ D.Is s.nbRows s.nbCols (fun x y => f (s.rowOffset + x) (s.colOffset + y)) := by
  subst hr hc
  obtain ⟨D, e, hD⟩ := FileIO.C42_window s l f (Dense.empty .col) hfit hsm hf rfl
  exact ⟨D, by simp only [Files.ofFile, hx, hl, e], hD⟩

/-- C129: if only actions are named that compute in double precision (in exact arithmetic), every line shows norm 0 twice, and every file holds zeros. -/
theorem C129_exact_actions_agree [Semiring F] (asserts : Bool) (w : With) (rt : Routines ℝ F) (hrt : rt.Conforms) (block : Action ℝ) (reps : Nat) (hr : 0 < reps)
    (c : Config ℝ) (d : Disk ℝ) (la lb : List (Spec ℝ)) (h : Valid w rt c d la lb) (hn : ∀ n ∈ c.actions, n ∈ Bench.doubleNames ∨ n = "blaze_dgemm") :
    ∃ (d' : Disk ℝ) (T : List Bench.Row), main asserts w rt block reps c d = ⟨d', T, .ok 0⟩ ∧ T.length = la.length * c.actions.length ∧
      (∀ (i k : Nat) (name : String), i < la.length → c.actions[k]? = some name →
        ∃ row, T[i * c.actions.length + k]? = some row ∧ row.matrix = i ∧ row.name = name ∧ row.max = 0 ∧ row.two = 0) ∧
      (∀ (i : Nat) (A B : Spec ℝ), la[i]? = some A → lb[i]? = some B → c.writeDiff = true → c.actions.length ≠ 1 → d.writable (diffName i) = true →
        ∃ l, d'.bin (diffName i) = some l ∧ FileIO.Holds l A.rows B.cols (fun _ _ => 0)) := by
  obtain ⟨d', T, e, h1, h2, -, -, -, -, h3⟩ := C129_table_partial asserts w rt hrt block reps hr c d la lb h
  have hpos : 0 < c.actions.length := List.length_pos_of_ne_nil h.actions.1
  have hres : ∀ {k : Nat} {name : String} {A B : Spec ℝ}, c.actions[k]? = some name → result rt A B name = fun x y => ∑ l ∈ Finset.range A.cols, A.elem x l * B.elem l y := by
    intro k name A B hk
    funext x y
    rcases hn name (List.mem_of_getElem? hk) with hd | rfl
    · simp only [Bench.doubleNames, List.mem_cons, List.not_mem_nil, or_false] at hd
      rcases hd with rfl | rfl | rfl | rfl <;> rfl
    · rfl
  obtain ⟨first, hf⟩ : ∃ first, c.actions[0]? = some first := ⟨_, List.getElem?_eq_getElem hpos⟩
  obtain ⟨last, hl⟩ : ∃ last, c.actions[c.actions.length - 1]? = some last := ⟨_, List.getElem?_eq_getElem (by omega)⟩
  refine ⟨d', T, e, h1, ?_, ?_⟩
  · intro i k name hi hk
    have hib : i < lb.length := by rw [← h.pairs]; exact hi
    obtain ⟨row, r1, r2⟩ := h2 i k _ _ first name (List.getElem?_eq_getElem hi) (List.getElem?_eq_getElem hib) hf hk
    obtain ⟨z1, z2⟩ := Bench.C83_zero_iff_equal row _ _ _ _ _ _ r2
    refine ⟨row, r1, r2.matrix, r2.name, z1.2 fun _ _ _ _ => ?_, z2.2 fun _ _ _ _ => ?_⟩ <;> rw [hres hk, hres hf]
  · intro i A B hA hB hw h1 hwr
    obtain ⟨l, l1, l2⟩ := h3 i A B first last hA hB hf hl hw h1 hwr
    refine ⟨l, l1, ?_⟩
    rw [hres hl, hres hf] at l2
    simpa using l2

/-- C129: with sets of different length, or if no action is known, nothing is printed, no file changes and the exit status is 1. -/
theorem C129_reports [Semiring F] (asserts : Bool) (w : With) (rt : Routines ℝ F) (block : Action ℝ) (reps : Nat) (c : Config ℝ) (d : Disk ℝ)
    (sets : String → Option (List (Spec ℝ))) (la lb : List (Spec ℝ)) (h : Describes d (inOrder c.matrices) sets) (hA : sets "A" = some la) (hB : sets "B" = some lb)
    (hx : la.length ≠ lb.length ∨ ∀ n ∈ c.actions, n ∉ Bench.available w ∧ n ≠ "blasbooster_block") :
    main asserts w rt block reps c d = ⟨d, [], .ok 1⟩ := by
  obtain ⟨S, eS, hS, hget⟩ := Provider.C57_sets asserts (resolve d c.matrices) sets (configures h)
  obtain ⟨LA, sA, lA, -⟩ := hget _ _ hA
  obtain ⟨LB, sB, lB, -⟩ := hget _ _ hB
  have hrun : ∃ msg, Bench.runOn c.writeDiff (Bench.provide w rt block reps c.actions) LA LB ⟨[], fun _ => none⟩ = (⟨[], fun _ => none⟩, .error (.throw msg)) := by
    apply Bench.C83_bad_input_throws
    rcases hx with hx | hx
    · exact .inr (.inl (by omega))
    · right; right
      clear h
      induction hac : c.actions with
      | nil => rfl
      | cons n ns _ =>
        have key : ∀ ns : List String, (∀ n ∈ ns, n ∉ Bench.available w ∧ n ≠ "blasbooster_block") → Bench.provide w rt block reps ns = [] := by
          intro ns
          induction ns with
          | nil => intro _; rfl
          | cons n ns ih =>
            intro h
            have := Bench.C83_unknown_action_is_ignored w rt block reps [] ns n (h n (by simp)).1 (h n (by simp)).2
            simp only [List.nil_append] at this
            rw [this]
            exact ih (fun m hm => h m (by simp [hm]))
        rw [← hac]
        exact key _ hx
  obtain ⟨msg, hrun⟩ := hrun
  simp only [main, eS, Bench.run, sA, sB, hrun, status]
  rw [storeAll_none _ _ _ (fun _ _ => rfl)]

/-- C129: a file that is configured and cannot be read is reported before anything is printed, whatever follows. -/
theorem C129_missing_file_is_reported [Zero F] [One F] (asserts : Bool) (w : With) (rt : Routines ℝ F) (block : Action ℝ) (reps : Nat) (c : Config ℝ) (d : Disk ℝ)
    (pre post : List (String × List (Entry ℝ))) (name path msg : String) (es : List (Entry ℝ)) (hc : c.matrices = pre ++ (name, .file path :: es) :: post)
    (S : Provider.Sets ℝ) (hpre : Provider.provider asserts (resolve d pre) = .ok S) (hf : Files.ofFile d path = .error (.throw msg)) :
    main asserts w rt block reps c d = ⟨d, [], .ok 1⟩ := by
  have : Provider.provider asserts (resolve d c.matrices) = .error (.throw msg) := by
    rw [hc]
    unfold Provider.provider at *
    rw [Provider.build_eq] at *
    have : entries (resolve d (pre ++ (name, .file path :: es) :: post)) =
        entries (resolve d pre) ++ (name, .file (.error (.throw msg))) :: ((es.map (Entry.leaf d)).map (fun l => (name, l)) ++ entries (resolve d post)) := by
      simp [entries, resolve, Entry.leaf, hf]
    rw [this, Provider.run_append, hpre, bind_ok']
    rfl
  simp only [main, this, status]

/-- C129 is false without a matrix in set A or B: the message "No matrices defined" is never printed, the program dereferences an end iterator. -/
theorem C129_no_set_is_ub [Zero F] [One F] (asserts : Bool) (w : With) (rt : Routines ℝ F) (block : Action ℝ) (reps : Nat) (c : Config ℝ) (d : Disk ℝ)
    (sets : String → Option (List (Spec ℝ))) (h : Describes d (inOrder c.matrices) sets) (hx : sets "A" = none ∨ sets "B" = none) :
    main asserts w rt block reps c d = ⟨d, [], .error .ub⟩ := by
  obtain ⟨S, eS, hS, -⟩ := Provider.C57_sets asserts (resolve d c.matrices) sets (configures h)
  have hn : ∀ n, sets n = none → S n = none := by
    intro n hn
    rcases hS n with ⟨h, -⟩ | ⟨L, l, -, h2, -⟩
    · exact h
    · rw [hn] at h2; cases h2
  simp only [main, eS, Bench.C83_missing_set_is_ub c.writeDiff _ S ⟨[], fun _ => none⟩ (hx.imp (hn _) (hn _)), status]
  rw [storeAll_none _ _ _ (fun _ _ => rfl)]

/-- A configured set is never empty. -/
theorem C129_sets_are_not_empty {d : Disk ℝ} {es : List (String × Entry ℝ)} {sets : String → Option (List (Spec ℝ))} (h : Describes d es sets) (n : String) :
    sets n ≠ some [] := by
  induction h generalizing n with
  | nil => simp
  | @snoc es sets name l new h ha ih =>
    dsimp only
    split
    · cases ha with
      | bands dims bands value hne hw =>
        intro h
        have h := List.append_eq_nil_iff.1 (Option.some.inj h)
        obtain ⟨x, hx⟩ := List.exists_mem_of_ne_nil _ hne.1
        exact hne.2 (List.map_eq_nil_iff.1 (List.flatMap_eq_nil_iff.1 h.2 x hx))
      | noBands => exact ih _
      | copy source l hs hl => rw [← hl]; exact ih _
      | file => simp
    · exact ih n

/-- C129, negative: differences that cannot be written are not reported. -/
theorem C129_unwritable_is_silent [Semiring F] (asserts : Bool) (w : With) (rt : Routines ℝ F) (hrt : rt.Conforms) (block : Action ℝ) (reps : Nat) (hr : 0 < reps)
    (c : Config ℝ) (d : Disk ℝ) (la lb : List (Spec ℝ)) (h : Valid w rt c d la lb) (hw : ∀ i, d.writable (diffName i) = false) :
    ∃ T, main asserts w rt block reps c d = ⟨d, T, .ok 0⟩ ∧ T.length = la.length * c.actions.length := by
  obtain ⟨d', T, e, h1, -, hx, hw', hb, -⟩ := C129_table_partial asserts w rt hrt block reps hr c d la lb h
  refine ⟨T, ?_, h1⟩
  have : d' = d := by
    obtain ⟨a, b, c⟩ := d
    obtain ⟨a', b', c'⟩ := d'
    simp only at hx hw' hb hw
    subst hx hw'
    congr
    funext q
    apply hb
    by_cases hq : ∃ i, q = diffName i
    · obtain ⟨i, rfl⟩ := hq; exact .inr (hw i)
    · exact .inl fun i _ h => hq ⟨i, h⟩
  rw [e, this]

/-- The three programs together: the generator writes a 3 × 3 band matrix, its description names it, the benchmark squares it with two actions
and writes a difference of zeros. -/
example : ∃ (w' : Disk ℝ) (d' : Disk ℝ) (T : List Bench.Row),
    Files.main true 0 0 ⟨"m.dat", "band", 3, 3, 2, 5⟩ ⟨fun p => if p = "m.xml" then some (some (⟨3, 3, 3, 3, 0, 0⟩, "m.dat")) else none, fun _ => none, fun _ => true⟩ = (w', .ok 0) ∧
    main true ⟨true, false, false⟩ (Bench.refRoutines ⟨4, 4, 4, true, true, true⟩) (Bench.native 1) 3
      ⟨["native_dense", "openblas_dgemm"], [("A", [.file "m.xml"]), ("B", [.equalTo "A"])], true⟩ w' = ⟨d', T, .ok 0⟩ ∧ T.length = 2 ∧
    ∃ l, d'.bin "diff_0.dat" = some l ∧ FileIO.Holds l 3 3 (fun _ _ => 0) := by
  obtain ⟨w', e1, hw⟩ := Files.C127_band_partial true (0 : ℝ) 0 ⟨"m.dat", "band", 3, 3, 2, 5⟩
    ⟨fun p => if p = "m.xml" then some (some (⟨3, 3, 3, 3, 0, 0⟩, "m.dat")) else none, fun _ => none, fun _ => true⟩ rfl rfl (by decide) (by decide) rfl
  have hwr : ∀ q, w'.writable q = true := by intro q; rw [hw.2.1]
  let s : Spec ℝ := ⟨3, 3, fun i j => if ((((0 + i : Nat) : Int) - (0 + j : Nat)).natAbs < 2) then 5 else 0⟩
  obtain ⟨hw1, -, -, l, hw3, hw4⟩ := id hw
  have hsets : ∃ sets, Describes w' (inOrder [("A", [.file "m.xml"]), ("B", [.equalTo "A"])]) sets ∧ sets "A" = some [s] ∧ sets "B" = some [s] :=
    ⟨_, .snoc (.snoc .nil (.file "m.xml" "m.dat" ⟨3, 3, 3, 3, 0, 0⟩ l _ (by rw [hw1]; rfl) hw3 hw4 (by decide) (by decide))) (.copy "A" [s] (by decide) rfl), rfl, rfl⟩
  obtain ⟨d', T, e3, h1, -, h3⟩ := C129_exact_actions_agree true ⟨true, false, false⟩ (Bench.refRoutines ⟨4, 4, 4, true, true, true⟩) (Bench.refRoutines_conforms _) (Bench.native 1) 3
    (by norm_num) ⟨["native_dense", "openblas_dgemm"], [("A", [.file "m.xml"]), ("B", [.equalTo "A"])], true⟩ w' [s] [s] (by
      refine ⟨hsets, rfl, by simp, ?_, ?_, ⟨by simp, ?_⟩, ?_⟩
      · intro i A B hA hB
        match i, hA, hB with
        | 0, hA, hB => cases hA; cases hB; exact ⟨rfl, by decide⟩
        | i + 1, hA, _ => simp at hA
      · intro i A B hA hB
        match i, hA, hB with
        | 0, hA, hB => cases hA; cases hB; exact ⟨by decide, by decide, by decide⟩
        | i + 1, hA, _ => simp at hA
      · intro n hn
        simp only [List.mem_cons, List.not_mem_nil, or_false] at hn
        rcases hn with rfl | rfl <;> simp [Bench.available]
      · rintro ⟨n, hn, hb⟩
        simp only [List.mem_cons, List.not_mem_nil, or_false] at hn
        rcases hn with rfl | rfl <;> simp at hb) (by
      intro n hn
      simp only [List.mem_cons, List.not_mem_nil, or_false] at hn
      rcases hn with rfl | rfl <;> simp [Bench.doubleNames])
  exact ⟨w', d', T, e1, e3, h1, h3 0 s s rfl rfl rfl (by simp) (hwr _)⟩

end BB.BenchMain
