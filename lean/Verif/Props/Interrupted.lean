import Verif.Model.Interrupted
import Verif.Props.Xpm
import Verif.Props.FileExact
import Verif.Props.Files

/-! C136: programs that are stopped while they write a file. -/

namespace BB.Interrupted

open FileIO (Holds)

variable {β F R : Type}

/-- Specification: a program that is to write `l` to the file `p` was stopped; `fs`, `fs'`: the files before and afterwards; `content`: the
content of a file that holds a list.  No other file changes, and `p` is as before or holds a prefix of `l`. -/
def Torn (content : List β → F) (fs fs' : String → Option F) (p : String) (l : List β) : Prop :=
  (∀ q, q ≠ p → fs' q = fs q) ∧ (fs' p = fs p ∨ ∃ m, m ≤ l.length ∧ fs' p = some (content (l.take m)))

theorem puts_after (writable : String → Bool) (nil : F) (push : F → β → F) (content : List β → F)
    (hp : ∀ l x, push (content l) x = content (l ++ [x])) (p : String) (hw : writable p = true) (d l : List β) (fs : String → Option F)
    (hd : fs p = some (content d)) :
    (l.map (Effect.put p)).foldl (Effect.apply writable nil push) fs = fun q => if q = p then some (content (d ++ l)) else fs q := by
  induction l generalizing d fs with
  | nil =>
    funext q
    by_cases h : q = p
    · subst h; simp [hd]
    · simp [h]
  | cons x l ih =>
    rw [List.map_cons, List.foldl_cons, ih (d ++ [x])]
    · funext q
      by_cases h : q = p
      · subst h; simp
      · simp [h, Effect.apply, hw]
    · simp [Effect.apply, hw, hd, hp]

theorem unwritable_after (writable : String → Bool) (nil : F) (push : F → β → F) (p : String) (hw : writable p = false) (es : List (Effect β))
    (fs : String → Option F) (he : ∀ e ∈ es, e = .open p ∨ ∃ x, e = .put p x) :
    es.foldl (Effect.apply writable nil push) fs = fs := by
  induction es with
  | nil => rfl
  | cons e es ih =>
    rw [List.foldl_cons]
    have : Effect.apply writable nil push fs e = fs := by
      rcases he e (by simp) with rfl | ⟨x, rfl⟩ <;> simp [Effect.apply, hw]
    rw [this, ih (fun e h => he e (by simp [h]))]

/-- The files after `k` steps of saving, exactly. -/
theorem after_save (writable : String → Bool) (nil : F) (push : F → β → F) (content : List β → F) (hn : content [] = nil)
    (hp : ∀ l x, push (content l) x = content (l ++ [x])) (p : String) (l : List β) (k : Nat) (fs : String → Option F) :
    after writable nil push (save p l) k fs =
      match k with
      | 0 => fs
      | m + 1 => if writable p then fun q => if q = p then some (content (l.take m)) else fs q else fs := by
  cases k with
  | zero => rfl
  | succ m =>
    unfold after save
    cases hw : writable p with
    | false =>
      rw [unwritable_after writable nil push p hw]
      · simp
      · intro e he
        have := List.mem_of_mem_take he
        simp only [List.mem_cons, List.mem_map] at this
        rcases this with rfl | ⟨x, -, rfl⟩
        · exact .inl rfl
        · exact .inr ⟨x, rfl⟩
    | true =>
      rw [List.take_succ_cons, List.foldl_cons, ← List.map_take,
        puts_after writable nil push content hp p hw [] (l.take m) _ (by simp [Effect.apply, hw, hn])]
      funext q
      by_cases h : q = p
      · simp [h]
      · simp [h, Effect.apply, hw]

theorem list_content (l : List R) (x : R) : (id l : List R) ++ [x] = id (l ++ [x]) := rfl

theorem string_content (l : List Char) (x : Char) : (String.ofList l).push x = String.ofList (l ++ [x]) := by
  apply String.toList_inj.1
  simp

/-! ### Matrix files -/

section matrix

variable [Zero R] [Add R] (asserts : Bool) (x y : R) (o : Files.Options R) (w : Files.Disk R)

/-- C136: a generate_matrix that is stopped at any point leaves every other file alone, and its own file as it was or holding a prefix of
what the program would have written; a program that is not stopped has written all of it. -/
theorem C136_matrix_stopped :
    (∀ k, (matrixStopped asserts x y o w k).xml = w.xml ∧
      ((matrixStopped asserts x y o w k).bin = w.bin ∨
        ∃ l, (Files.main asserts x y o w).1.bin o.file = some l ∧ Torn id w.bin (matrixStopped asserts x y o w k).bin o.file l)) ∧
    (∀ k, (matrixSteps asserts x y o).length ≤ k → matrixStopped asserts x y o w k = (Files.main asserts x y o w).1) := by
  unfold matrixStopped matrixSteps Files.main
  rcases Files.matrixOf asserts x y o with e | A
  · refine ⟨fun k => ⟨rfl, .inl (by simp [after])⟩, fun k _ => ?_⟩
    cases e <;> simp [after]
  · simp only
    rcases Files.dump A.data 0 A.dim.fullSize with e | l
    · exact ⟨fun k => ⟨trivial, .inl (by simp [after])⟩, fun k _ => by simp [after]⟩
    · simp only
      have key := after_save w.writable [] (fun l v => l ++ [v]) (id : List R → List R) rfl (fun l x => rfl) o.file l
      refine ⟨fun k => ⟨trivial, ?_⟩, fun k hk => ?_⟩
      · rw [key]
        cases k with
        | zero => exact .inl rfl
        | succ m =>
          cases hw : w.writable o.file with
          | false => exact .inl (by simp)
          | true =>
            refine .inr ⟨l, by simp, fun q hq => by simp [hq], .inr ⟨min m l.length, Nat.min_le_right _ _, ?_⟩⟩
            simp [List.take_eq_take_iff]
      · rw [key]
        obtain ⟨m, rfl⟩ : ∃ m, k = m + 1 := ⟨k - 1, by simp [save] at hk; omega⟩
        have hm : l.length ≤ m := by simp [save] at hk; omega
        simp only [List.take_of_length_le hm, id]
        cases w.writable o.file <;> rfl

/-- C136: once the file was opened, the importer of whole matrices – with the dimensions of the matrix – either gets the matrix that the program was
to write, or reports the incomplete file.  (Missing: other readers, `C136_window_complete_iff`, `C136_window_silent_counterexample`.) -/
theorem C136_importer_partial {A : Dense R} {r c : Nat} {f : Nat → Nat → R} (hM : Files.matrixOf asserts x y o = .ok A) (hA : A.Is r c f) (ho : A.ori = .col)
    (hw : w.writable o.file = true) (k : Nat) (hk : 0 < k) :
    (r * c < k ∧ ∃ B, FileIO.importFile r c ((matrixStopped asserts x y o w k).bin o.file) = .ok B ∧ B.Is r c f) ∨
    (k ≤ r * c ∧ FileIO.importFile r c ((matrixStopped asserts x y o w k).bin o.file) = .error (.throw "Error reading file ")) := by
  obtain ⟨l, h1, h2⟩ := Files.dump_holds hA ho
  obtain ⟨m, rfl⟩ : ∃ m, k = m + 1 := ⟨k - 1, by omega⟩
  have hb : (matrixStopped asserts x y o w (m + 1)).bin o.file = some (l.take m) := by
    simp only [matrixStopped, matrixSteps, hM, h1,
      after_save w.writable [] (fun l v => l ++ [v]) (id : List R → List R) rfl (fun l x => rfl), hw]
    simp
  have hl := h2.1
  rw [hb]
  by_cases hm : r * c ≤ m
  · refine .inl ⟨by omega, ?_⟩
    rw [List.take_of_length_le (by omega)]
    exact (FileIO.C42_importer r c l).1 f h2
  · exact .inr ⟨by omega, (FileIO.C42_importer r c (l.take m)).2.1 (by rw [List.length_take]; omega)⟩

/-- C136: a matrix constructed from a description of the file of a stopped program, whose window fits, is constructed without a report, and it is
complete exactly if the program had written the last element of the window. -/
theorem C136_window_complete_iff {A : Dense R} {r c : Nat} {f : Nat → Nat → R} (hM : Files.matrixOf asserts x y o = .ok A) (hA : A.Is r c f)
    (ho : A.ori = .col) (hw : w.writable o.file = true) (m : Nat) (xml : String) (s : FileIO.Settings) (hx : w.xml xml = some (some (s, o.file)))
    (hr : s.rowLD = r) (hc : s.colLD = c) (hfit : s.rowOffset + s.nbRows ≤ r ∧ s.colOffset + s.nbCols ≤ c) (hsm : r < 2 ^ 64 ∧ c < 2 ^ 64)
    (h0 : 0 < s.nbRows ∧ 0 < s.nbCols) :
    ∃ B, Files.ofFile (matrixStopped asserts x y o w (m + 1)) xml = .ok B ∧
      ((∃ g, B.Is s.nbRows s.nbCols g) ↔ (s.colOffset + (s.nbCols - 1)) * r + (s.rowOffset + (s.nbRows - 1)) < m) := by
  obtain ⟨l, h1, h2⟩ := Files.dump_holds hA ho
  have hb : (matrixStopped asserts x y o w (m + 1)).bin o.file = some (l.take m) := by
    simp only [matrixStopped, matrixSteps, hM, h1,
      after_save w.writable [] (fun l v => l ++ [v]) (id : List R → List R) rfl (fun l x => rfl), hw]
    simp
  subst hr hc
  obtain ⟨B, e, -⟩ := FileIO.C70_window_exact s (l.take m) (Dense.empty .col) hfit hsm
  refine ⟨B, ?_, ?_⟩
  · have : (matrixStopped asserts x y o w (m + 1)).xml = w.xml := rfl
    simp only [Files.ofFile, this, hx, hb, e]
  · have key := FileIO.C70_window_complete_iff s (l.take m) hfit hsm h0.1 h0.2
    have hlast : (s.colOffset + (s.nbCols - 1)) * s.rowLD + (s.rowOffset + (s.nbRows - 1)) < l.length := by
      rw [h2.1]
      have : (s.colOffset + (s.nbCols - 1) + 1) * s.rowLD ≤ s.colLD * s.rowLD := Nat.mul_le_mul_right _ (by omega)
      rw [Nat.succ_mul, Nat.mul_comm s.colLD] at this
      omega
    constructor
    · rintro ⟨g, hg⟩
      have := key.1 ⟨B, g, e, hg⟩
      rw [List.length_take] at this
      omega
    · intro h
      obtain ⟨B', g, e', hg⟩ := key.2 (by rw [List.length_take]; omega)
      rw [e] at e'; cases e'
      exact ⟨g, hg⟩

/-- C136: after any number of stopped runs, a run that is not stopped leaves the files as if nothing had happened before. -/
theorem C136_matrix_rerun (ks : List Nat) :
    Files.main asserts x y o (ks.foldl (matrixStopped asserts x y o) w) = Files.main asserts x y o w := by
  have key : ∀ w : Files.Disk R, ∀ k, (matrixStopped asserts x y o w k).xml = w.xml ∧ (matrixStopped asserts x y o w k).writable = w.writable ∧
      ∀ q, q ≠ o.file → (matrixStopped asserts x y o w k).bin q = w.bin q := by
    intro w k
    refine ⟨rfl, rfl, fun q hq => ?_⟩
    rcases (C136_matrix_stopped asserts x y o w).1 k with ⟨-, h | ⟨l, -, h⟩⟩
    · rw [h]
    · exact h.1 q hq
  have all : (ks.foldl (matrixStopped asserts x y o) w).xml = w.xml ∧ (ks.foldl (matrixStopped asserts x y o) w).writable = w.writable ∧
      ∀ q, q ≠ o.file → (ks.foldl (matrixStopped asserts x y o) w).bin q = w.bin q := by
    induction ks generalizing w with
    | nil => exact ⟨rfl, rfl, fun _ _ => rfl⟩
    | cons k ks ih =>
      obtain ⟨a, b, c⟩ := ih (matrixStopped asserts x y o w k)
      obtain ⟨a', b', c'⟩ := key w k
      exact ⟨a.trans a', b.trans b', fun q hq => (c q hq).trans (c' q hq)⟩
  have same : (matrixSteps asserts x y o = [] ∨ w.writable o.file = false) → ks.foldl (matrixStopped asserts x y o) w = w := by
    intro h
    have one : ∀ k, matrixStopped asserts x y o w k = w := by
      intro k
      rcases h with h | h
      · simp [matrixStopped, h, after]
      · unfold matrixStopped matrixSteps
        rcases Files.matrixOf asserts x y o with e | A
        · simp [after]
        · simp only
          rcases Files.dump A.data 0 A.dim.fullSize with e | l
          · simp [after]
          · simp only [after_save w.writable [] (fun l v => l ++ [v]) (id : List R → List R) rfl (fun l x => rfl), h]
            cases k <;> rfl
    clear all
    induction ks with
    | nil => rfl
    | cons k ks ih => rw [List.foldl_cons, one, ih]
  generalize ks.foldl (matrixStopped asserts x y o) w = w' at all same
  by_cases hw : w.writable o.file = true
  · by_cases hs : matrixSteps asserts x y o = []
    · rw [same (.inl hs)]
    · obtain ⟨a, b, c⟩ := all
      unfold matrixSteps at hs
      unfold Files.main
      rcases hM : Files.matrixOf asserts x y o with e | A
      · simp [hM] at hs
      · simp only [hM] at hs ⊢
        rcases hD : Files.dump A.data 0 A.dim.fullSize with e | l
        · simp [hD] at hs
        · simp only [b, hw, if_true]
          congr 1
          cases w; cases w'
          simp only at a b c ⊢
          subst a b
          congr 1
          funext q
          by_cases h : q = o.file
          · simp [h]
          · simp [h, c q h]
  · rw [same (.inr (by simpa using hw))]

/-- C136 (negation): what the file held before is lost as soon as it was opened, whether or not anything is written. -/
theorem C136_old_content_lost {A : Dense R} {r c : Nat} {f : Nat → Nat → R} (hM : Files.matrixOf asserts x y o = .ok A) (hA : A.Is r c f) (ho : A.ori = .col)
    (hw : w.writable o.file = true) : (matrixStopped asserts x y o w 1).bin o.file = some [] := by
  obtain ⟨l, h1, -⟩ := Files.dump_holds hA ho
  simp [matrixStopped, matrixSteps, hM, h1, after, save, Effect.apply, hw]

end matrix

/-- The options `-f m.dat -r 2 -c 2 -b 1 -v 7`. -/
def exOptions : Files.Options Int := ⟨"m.dat", "band", 2, 2, 1, 7⟩

/-- A file that is overwritten, and its description. -/
def exDisk : Files.Disk Int :=
  ⟨fun p => if p = "m.xml" then some (some (⟨2, 2, 2, 2, 0, 0⟩, "m.dat")) else none, fun p => if p = "m.dat" then some [1, 2, 3, 4] else none, fun _ => true⟩

/-- C136 (negation): generate_matrix was stopped after it had written two of four elements; the matrix constructed from the description of its
file is accepted and its last column was never written. -/
theorem C136_window_silent_counterexample :
    (Files.ofFile (matrixStopped true 0 0 exOptions exDisk 3) "m.xml").toOption.map (·.data) = some [some 7, some 0, none, none] := by
  decide +kernel

/-- The hypotheses of the theorems about matrix files are met by this program: before the file is opened, after it was opened, after two elements, and at
the end. -/
example : ((Files.matrixOf true 0 0 exOptions).toOption.map fun A => (A.ori, A.dim, A.data)) = some (Ori.col, Dim.mk' 2 2, [some 7, some 0, some 0, some 7]) ∧
    [0, 1, 3, 5].map (fun k => (matrixStopped true 0 0 exOptions exDisk k).bin "m.dat") = [some [1, 2, 3, 4], some [], some [7, 0], some [7, 0, 0, 7]] ∧
    (FileIO.importFile 2 2 (some [(7 : Int), 0])).toOption.isNone = true := by
  refine ⟨by decide +kernel, by decide +kernel, by decide +kernel⟩

/-! ### Pattern files -/

theorem literals_prefix (st : Option (List Char)) (s t : List Char) (h : s <+: t) : Xpm.literals st s <+: Xpm.literals st t := by
  obtain ⟨u, rfl⟩ := h
  induction s generalizing st with
  | nil => cases st <;> simp [Xpm.literals]
  | cons c s ih =>
    cases st with
    | none =>
      simp only [List.cons_append, Xpm.literals]
      split <;> exact ih _
    | some a =>
      simp only [List.cons_append, Xpm.literals]
      split
      · exact (List.cons_prefix_cons).2 ⟨rfl, ih _⟩
      · exact ih _

theorem mapM_length {α γ : Type} {g : α → Option γ} : ∀ {l : List α} {l' : List γ}, l.mapM g = some l' → l'.length = l.length := by
  intro l
  induction l with
  | nil => intro l' h; simp at h; subst h; rfl
  | cons a l ih =>
    intro l' h
    rw [List.mapM_cons] at h
    cases ha : g a with
    | none => simp [ha] at h
    | some b =>
      cases hl : l.mapM g with
      | none => simp [ha, hl] at h
      | some m =>
        simp [ha, hl] at h
        subst h
        simp [ih hl]

/-- The literals of a text that can be read: a heading and, as announced, the palette and the rows. -/
theorem read_literals {s : List Char} {I : Xpm.Image} (h : Xpm.read s = some I) :
    ∃ hd ls w n, Xpm.literals none s = hd :: ls ∧ (Print.words hd).map Xpm.number = [some w, some I.height, some n, some 1] ∧
      ls.length = n + I.height := by
  unfold Xpm.read at h
  split at h
  · cases h
  · rename_i hd ls e
    split at h
    · cases h
    · split at h
      · rename_i w ht n hw
        simp only [Option.bind_eq_bind] at h
        obtain ⟨cs, h1, h⟩ := Option.bind_eq_some_iff.1 h
        obtain ⟨rows, h2, h⟩ := Option.bind_eq_some_iff.1 h
        split at h
        · rename_i hc
          cases h
          have l1 := mapM_length h1
          have l2 := mapM_length h2
          rw [List.length_take] at l1
          rw [List.length_drop] at l2
          exact ⟨hd, ls, w, n, e, hw, by simp only; omega⟩
        · cases h
      · cases h

/-- C136: a beginning of a pattern image cannot be read, or it is the same image (only the end of the text after the last row is missing). -/
theorem C136_torn_image {s t : List Char} {I I' : Xpm.Image} (hst : s <+: t) (ht : Xpm.read t = some I) (hs : Xpm.read s = some I') : I' = I := by
  obtain ⟨hd, ls, w, n, e, hw, hl⟩ := read_literals ht
  obtain ⟨hd', ls', w', n', e', hw', hl'⟩ := read_literals hs
  have hp := literals_prefix none s t hst
  rw [e, e', List.cons_prefix_cons] at hp
  obtain ⟨rfl, hp⟩ := hp
  rw [hw] at hw'
  simp only [List.cons.injEq, Option.some.injEq, and_true] at hw'
  obtain ⟨-, h2, h3⟩ := hw'
  have : ls' = ls := hp.eq_of_length (by omega)
  subst this
  have : Xpm.read s = Xpm.read t := by unfold Xpm.read; rw [e, e']
  rw [this, ht] at hs
  exact (Option.some.inj hs).symm

section pattern

variable [Field R] [LinearOrder R] (b : Build) (rnd ex : R → R) (sort : List R → List Nat) (pow : Nat → R) (S : Show.Settings R) (o : Show.Options)
  (w : Files.Disk R) (text : String → Option String)

/-- C136: a show_pattern that is stopped at any point leaves every other file alone, and its own file as it was or holding a prefix of what
the program would have written; a program that is not stopped has written all of it. -/
theorem C136_pattern_stopped :
    (∀ k, patternStopped b rnd ex sort pow S o w text k = text ∨
      ∃ s, (Show.main b rnd ex sort pow S o w text).1 o.patternFile = some s ∧
        Torn String.ofList text (patternStopped b rnd ex sort pow S o w text k) o.patternFile s.toList) ∧
    (∀ k, (patternSteps b rnd ex sort pow S o w).length ≤ k →
      patternStopped b rnd ex sort pow S o w text k = (Show.main b rnd ex sort pow S o w text).1) := by
  unfold patternStopped patternSteps Show.main
  rcases Show.patternText b rnd ex sort pow S o w with e | l
  · refine ⟨fun k => .inl (by simp [after]), fun k _ => ?_⟩
    cases e <;> simp [after]
  · simp only
    have key := after_save w.writable "" String.push String.ofList rfl string_content o.patternFile (String.join l).toList
    refine ⟨fun k => ?_, fun k hk => ?_⟩
    · rw [key]
      cases k with
      | zero => exact .inl rfl
      | succ m =>
        cases hw : w.writable o.patternFile with
        | false => exact .inl (by simp)
        | true =>
          refine .inr ⟨String.join l, by simp, fun q hq => by simp [hq], .inr ⟨min m (String.join l).toList.length, Nat.min_le_right _ _, ?_⟩⟩
          simp only [if_true]
          congr 2
          rw [List.take_eq_take_iff]
          omega
    · rw [key]
      obtain ⟨m, rfl⟩ : ∃ m, k = m + 1 := ⟨k - 1, by simp only [save, List.length_cons, List.length_map] at hk; omega⟩
      have hm : (String.join l).toList.length ≤ m := by simp only [save, List.length_cons, List.length_map] at hk; omega
      simp only [List.take_of_length_le hm, String.ofList_toList]

/-- C136: after any number of stopped runs, a run that is not stopped leaves the files as if nothing had happened before. -/
theorem C136_pattern_rerun (ks : List Nat) :
    Show.main b rnd ex sort pow S o w (ks.foldl (patternStopped b rnd ex sort pow S o w) text) = Show.main b rnd ex sort pow S o w text := by
  unfold Show.main patternStopped patternSteps
  rcases Show.patternText b rnd ex sort pow S o w with e | l
  · have : ks.foldl (fun t k => after w.writable "" String.push ([] : List (Effect Char)) k t) text = text := by
      induction ks with
      | nil => rfl
      | cons k ks ih => rw [List.foldl_cons]; simpa [after] using ih
    simp only [this]
  · simp only
    have one := fun k => after_save w.writable "" String.push String.ofList rfl string_content o.patternFile (String.join l).toList k
    have all : (∀ q, q ≠ o.patternFile → ks.foldl (fun t k => after w.writable "" String.push (save o.patternFile (String.join l).toList) k t) text q = text q) ∧
        (w.writable o.patternFile = false → ks.foldl (fun t k => after w.writable "" String.push (save o.patternFile (String.join l).toList) k t) text = text) := by
      induction ks generalizing text with
      | nil => exact ⟨fun _ _ => rfl, fun _ => rfl⟩
      | cons k ks ih =>
        rw [List.foldl_cons]
        refine ⟨fun q hq => ((ih _).1 q hq).trans ?_, fun hw => ((ih _).2 hw).trans ?_⟩
        · rw [one]
          cases k with
          | zero => rfl
          | succ m => simp only; split <;> simp [hq]
        · rw [one]
          cases k with
          | zero => rfl
          | succ m => simp [hw]
    cases hw : w.writable o.patternFile with
    | false => simp only [all.2 hw, hw]
    | true =>
      simp only [if_true, Prod.mk.injEq, and_true]
      funext q
      by_cases h : q = o.patternFile
      · simp [h]
      · simp only [if_neg h]; exact all.1 q h

/-- C136: once the pattern file was opened, a stopped show_pattern (type `elements`, palette with distinct keys of one character) has left a file that cannot be
read or that is the picture of the matrix.  (Missing: other palettes, as in C135.) -/
theorem C136_torn_pattern_partial [IsStrictOrderedRing R] (hS : Xpm.Plain S.pattern) {A : Dense R} {r c : Nat} {f : Nat → Nat → R}
    (hR : Files.ofFile w o.matrixFile = .ok A) (hA : A.Is r c f) (hr : r < 2 ^ 64) (ht : o.patternType = "elements") (hw : w.writable o.patternFile = true)
    (m : Nat) : ∃ s, patternStopped b rnd ex sort pow S o w text (m + 1) o.patternFile = some s ∧
      ∀ I, Xpm.read s.toList = some I → I.width = c ∧ I.height = r ∧
        ∀ i j, i < r → j < c → ∃ v, I.at i j = some v ∧ Xpm.IsColour S.pattern (f i j) v := by
  obtain ⟨text', s, I, e1, e2, e3, h⟩ := Xpm.C135_elements_partial b rnd ex sort pow S hS o w text hR hA hr ht hw
  have key : ∃ l, Show.patternText b rnd ex sort pow S o w = .ok l ∧ s = String.join l := by
    unfold Show.main at e1
    split at e1
    · simp at e1
    · simp at e1
    · rename_i l hl
      simp only [hw, if_true, Prod.mk.injEq] at e1
      rw [← e1.1] at e2
      simp at e2
      exact ⟨l, hl, e2.symm⟩
  obtain ⟨l, hl, rfl⟩ := key
  refine ⟨String.ofList ((String.join l).toList.take m), ?_, fun I' hI' => ?_⟩
  · simp only [patternStopped, patternSteps, hl, after_save w.writable "" String.push String.ofList rfl string_content, hw]
    simp
  · rw [String.toList_ofList] at hI'
    rw [C136_torn_image (List.take_prefix _ _) e3 hI']
    exact h

end pattern

/-- The hypotheses are met: an image of one pixel; without its last row it cannot be read, without its last line it is the same. -/
example : (Xpm.read "x[] = {\n\"1 1 2 1\",\n\"a\tc #ff0000\",\n\"b\tc #000000\",\n\"b\"};\n".toList).map (·.rows) = some [["#000000".toList]] ∧
    (Xpm.read "x[] = {\n\"1 1 2 1\",\n\"a\tc #ff0000\",\n\"b\tc #000000\",\n\"b\"".toList).map (·.rows) = some [["#000000".toList]] ∧
    (Xpm.read "x[] = {\n\"1 1 2 1\",\n\"a\tc #ff0000\",\n\"b\tc #000000\",\n\"b".toList).isNone = true := by
  refine ⟨by decide +kernel, by decide +kernel, by decide +kernel⟩

end BB.Interrupted
