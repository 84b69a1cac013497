import Verif.Model.FullDisk
import Verif.Props.Interrupted
import Verif.Props.BenchMain

/-! C141: programs on a disk that is full. -/

namespace BB.FullDisk

variable {R F : Type}

section generator

variable [Zero R] [Add R] (room : Nat) (asserts : Bool) (x y : R) (o : Files.Options R) (w : Files.Disk R)

/-- C141: on a full disk generate_matrix exits as on an empty one, and leaves the files of a program that was stopped after it had written `room` elements; where the
matrix fits nothing differs.  (Missing: a report, `C141_silent_counterexample`.) -/
theorem C141_generator_partial :
    (generator room asserts x y o w).2 = (Files.main asserts x y o w).2 ∧
    (generator room asserts x y o w).1 = Interrupted.matrixStopped asserts x y o w (room + 1) ∧
    (∀ A : Dense R, Files.matrixOf asserts x y o = .ok A → A.dim.fullSize ≤ room → generator room asserts x y o w = Files.main asserts x y o w) := by
  unfold generator Interrupted.matrixStopped Interrupted.matrixSteps Files.main
  rcases Files.matrixOf asserts x y o with e | A
  · refine ⟨by cases e <;> rfl, by cases e <;> simp [Interrupted.after], by simp⟩
  · dsimp only
    rcases hD : Files.dump A.data 0 A.dim.fullSize with e | l
    · exact ⟨rfl, by simp [Interrupted.after], fun _ _ _ => rfl⟩
    · refine ⟨rfl, ?_, fun A' hA' hr => ?_⟩
      · dsimp only
        rw [Interrupted.after_save w.writable [] (fun l v => l ++ [v]) (id : List R → List R) rfl (fun l x => rfl) o.file l]
        cases w.writable o.file <;> rfl
      · cases hA'
        have : ∀ (n p : Nat) (l : List R), Files.dump A.data p n = .ok l → l.length = n := by
          intro n
          induction n with
          | zero => intro p l h; cases h; rfl
          | succ n ih =>
            intro p l h
            unfold Files.dump at h
            obtain ⟨v, -, h⟩ := Own.bind_eq_ok h
            obtain ⟨t, ht, h⟩ := Own.bind_eq_ok h
            cases h
            rw [List.length_cons, ih _ _ ht]
        dsimp only
        rw [List.take_of_length_le (by rw [this _ _ _ hD]; exact hr)]

/-- C141: the importer of whole matrices gets the matrix if it fits, and reports the file if it does not. -/
theorem C141_importer {A : Dense R} {r c : Nat} {f : Nat → Nat → R} (hM : Files.matrixOf asserts x y o = .ok A) (hA : A.Is r c f) (ho : A.ori = .col)
    (hw : w.writable o.file = true) :
    (generator room asserts x y o w).2 = .ok 0 ∧
    ((r * c ≤ room ∧ ∃ B, FileIO.importFile r c ((generator room asserts x y o w).1.bin o.file) = .ok B ∧ B.Is r c f) ∨
      (room < r * c ∧ FileIO.importFile r c ((generator room asserts x y o w).1.bin o.file) = .error (.throw "Error reading file "))) := by
  obtain ⟨h1, h2, -⟩ := C141_generator_partial room asserts x y o w
  refine ⟨?_, ?_⟩
  · rw [h1]
    obtain ⟨l, h, -⟩ := Files.dump_holds hA ho
    simp only [Files.main, hM, h]
  · rw [h2]
    rcases Interrupted.C136_importer_partial asserts x y o w hM hA ho hw (room + 1) (by omega) with ⟨h, h'⟩ | ⟨h, h'⟩
    · exact .inl ⟨by omega, h'⟩
    · exact .inr ⟨by omega, h'⟩

end generator

/-- C141 (negation): generate_matrix reports success, exits with 0, and its file is a beginning of the matrix.  The matrix constructed from its description is accepted, and
its second column was never written. -/
theorem C141_silent_counterexample :
    (match generator 2 true 0 0 Interrupted.exOptions Interrupted.exDisk with
      | (w, e) => (e.toOption, w.bin "m.dat", (Files.ofFile w "m.xml").toOption.map (·.data))) = (some 0, some [7, 0], some [some 7, some 0, none, none]) := by
  decide +kernel

/-- C141: on a full disk show_pattern exits as on an empty one, and leaves the files of a program that was stopped after it had written `room` characters; where the
picture fits nothing differs. -/
theorem C141_pattern_partial [Field R] [LinearOrder R] (room : Nat) (b : Build) (rnd ex : R → R) (sort : List R → List Nat) (pow : Nat → R) (S : Show.Settings R)
    (o : Show.Options) (w : Files.Disk R) (text : String → Option String) :
    (pattern room b rnd ex sort pow S o w text).2 = (Show.main b rnd ex sort pow S o w text).2 ∧
    (pattern room b rnd ex sort pow S o w text).1 = Interrupted.patternStopped b rnd ex sort pow S o w text (room + 1) ∧
    (∀ l, Show.patternText b rnd ex sort pow S o w = .ok l → (String.join l).length ≤ room →
      pattern room b rnd ex sort pow S o w text = Show.main b rnd ex sort pow S o w text) := by
  unfold pattern Interrupted.patternStopped Interrupted.patternSteps Show.main
  rcases Show.patternText b rnd ex sort pow S o w with e | l
  · exact ⟨by cases e <;> rfl, by cases e <;> simp [Interrupted.after], by simp⟩
  · dsimp only
    refine ⟨rfl, ?_, fun l' hl' hr => ?_⟩
    · rw [Interrupted.after_save w.writable "" String.push String.ofList rfl Interrupted.string_content o.patternFile (String.join l).toList]
    · cases hl'
      rw [List.take_of_length_le (by rw [String.length_toList]; exact hr), String.ofList_toList]

/-- C141: the picture of a matrix (type `elements`, palette with distinct keys of one character) that was written to a full disk cannot be read, or is the picture of the matrix.
(Missing: other palettes, as in C135.) -/
theorem C141_torn_pattern_partial [Field R] [LinearOrder R] [IsStrictOrderedRing R] (room : Nat) (b : Build) (rnd ex : R → R) (sort : List R → List Nat) (pow : Nat → R)
    (S : Show.Settings R) (o : Show.Options) (w : Files.Disk R) (text : String → Option String) (hS : Xpm.Plain S.pattern) {A : Dense R} {r c : Nat} {f : Nat → Nat → R}
    (hR : Files.ofFile w o.matrixFile = .ok A) (hA : A.Is r c f) (hr : r < 2 ^ 64) (ht : o.patternType = "elements") (hw : w.writable o.patternFile = true) :
    ∃ s, (pattern room b rnd ex sort pow S o w text).1 o.patternFile = some s ∧
      ∀ I, Xpm.read s.toList = some I → I.width = c ∧ I.height = r ∧ ∀ i j, i < r → j < c → ∃ v, I.at i j = some v ∧ Xpm.IsColour S.pattern (f i j) v := by
  rw [(C141_pattern_partial room b rnd ex sort pow S o w text).2.1]
  exact Interrupted.C136_torn_pattern_partial b rnd ex sort pow S o w text hS hR hA hr ht hw room

theorem storeAll_rel (room : Nat) (files : Nat → Option (Buf R)) (d : Files.Disk R) (n : Nat) :
    (storeAll room files d n).xml = (BenchMain.storeAll files d n).xml ∧ (storeAll room files d n).writable = (BenchMain.storeAll files d n).writable ∧
    ∀ q, (storeAll room files d n).bin q = (BenchMain.storeAll files d n).bin q ∧ (BenchMain.storeAll files d n).bin q = d.bin q ∨
      ∃ l, (BenchMain.storeAll files d n).bin q = some l ∧ (storeAll room files d n).bin q = some (l.take room) := by
  induction n with
  | zero => exact ⟨rfl, rfl, fun q => .inl ⟨rfl, rfl⟩⟩
  | succ n ih =>
    obtain ⟨h1, h2, h3⟩ := ih
    rw [storeAll, BenchMain.storeAll]
    rcases files n with _ | b
    · exact ⟨h1, h2, h3⟩
    · dsimp only
      unfold store BenchMain.store
      rcases Files.dump b 0 b.length with e | l
      · exact ⟨h1, h2, h3⟩
      · dsimp only
        rw [h2]
        split
        · refine ⟨h1, rfl, fun q => ?_⟩
          dsimp only
          split
          · exact .inr ⟨l, rfl, rfl⟩
          · exact h3 q
        · exact ⟨h1, h2, h3⟩

/-- C141: on a full disk the benchmark program prints the table and exits as on an empty one; of every file it writes there is the beginning that fits. -/
theorem C141_benchmark_partial [Zero F] [One F] (room : Nat) (asserts : Bool) (w : Bench.With) (rt : Bench.Routines ℝ F) (block : Bench.Action ℝ) (reps : Nat)
    (c : BenchMain.Config ℝ) (d : Files.Disk ℝ) :
    (benchmark room asserts w rt block reps c d).rows = (BenchMain.main asserts w rt block reps c d).rows ∧
    (benchmark room asserts w rt block reps c d).exit = (BenchMain.main asserts w rt block reps c d).exit ∧
    ∀ q, (benchmark room asserts w rt block reps c d).disk.bin q = (BenchMain.main asserts w rt block reps c d).disk.bin q ∧
        (BenchMain.main asserts w rt block reps c d).disk.bin q = d.bin q ∨
      ∃ l, (BenchMain.main asserts w rt block reps c d).disk.bin q = some l ∧ (benchmark room asserts w rt block reps c d).disk.bin q = some (l.take room) := by
  unfold benchmark BenchMain.main
  rcases Provider.provider asserts (BenchMain.resolve d c.matrices) with e | sets
  · exact ⟨rfl, rfl, fun q => .inl ⟨rfl, rfl⟩⟩
  · exact ⟨rfl, rfl, (storeAll_rel room _ d _).2.2⟩

/-- The hypotheses of the theorems about generate_matrix are met with room for all, some and none of the elements. -/
example : ((Files.matrixOf true 0 0 Interrupted.exOptions).toOption.map fun A => (A.ori, A.dim)) = some (Ori.col, Dim.mk' 2 2) ∧
    [4, 3, 0].map (fun n => (generator n true 0 0 Interrupted.exOptions Interrupted.exDisk).1.bin "m.dat") = [some [7, 0, 0, 7], some [7, 0, 0], some []] := by
  decide +kernel

end BB.FullDisk
