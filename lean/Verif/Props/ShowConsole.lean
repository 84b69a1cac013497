import Verif.Model.ShowConsole
import Verif.Props.Show
import Verif.Props.Print
import Verif.Props.OrientSparse

/-! C132: the terminals of show_pattern and generate_matrix. -/

namespace BB.ShowConsole

variable {R : Type}

/-- Specification: the first lines. -/
def greeting (version program : List Char) : List Char := "\nBlasBooster ".toList ++ version ++ (' ' :: program ++ "\n\n".toList)

/-- Specification: the line of the timer. -/
def timeLine (E : Env) : List Char := "Total time: ".toList ++ E.elapsed ++ " s\n".toList

/-- Specification: the last lines after an exception. -/
def aborted (E : Env) (m : String) : List Char := E.words m ++ "\nProgram was aborted.\n".toList

/-- Specification: how a matrix appears on the screen. -/
def shown {T : Type} (F : Print.Format T) (r c : Nat) (f : Nat → Nat → T) : List Char :=
  if r ≤ 100 ∧ c ≤ 100 then Print.block F r c f else "Matrix too large for printing.\n".toList

/-- Specification: the two matrices of the blocks. -/
def tableText (r c : Nat) (n : Nat → Nat → Nat) (d : Nat → Nat → Nat × Nat) : List Char :=
  "type matrix: ".toList ++ shown numbers r c n ++ "\ndimension matrix: ".toList ++ shown Print.Format.dim r c d ++ ['\n']

theorem hello_eq (v p q : List Char) (h : q = ' ' :: p ++ ['\n']) : ((start.text ("\nBlasBooster ".toList ++ v ++ q)).text ['\n']) =
    { start with out := greeting v p } := by
  subst h
  unfold greeting Print.Stream.text start
  have : "\n\n".toList = ['\n', '\n'] := by decide +kernel
  rw [this]
  generalize "\nBlasBooster ".toList = x
  simp

theorem timer_out (E : Env) (s : Print.Stream) : (timer E s).out = s.out ++ timeLine E := by
  unfold timer timeLine Print.Stream.text
  have : " s\n".toList = " s".toList ++ ['\n'] := by decide +kernel
  rw [this]
  generalize "Total time: ".toList = x
  generalize " s".toList = y
  simp

theorem caught_out (E : Env) (m : String) (s : Print.Stream) : (caught E m s).out = s.out ++ aborted E m := by
  unfold caught aborted Print.Stream.text
  have : "\nProgram was aborted.\n".toList = ['\n'] ++ "Program was aborted.".toList ++ ['\n'] := by decide +kernel
  rw [this]
  generalize "Program was aborted.".toList = x
  simp

/-- Output only grows. -/
def Grows (s s' : Print.Stream) : Prop := ∃ t, s'.out = s.out ++ t

theorem Grows.refl (s : Print.Stream) : Grows s s := ⟨[], by simp⟩

theorem Grows.trans {a b c : Print.Stream} (h : Grows a b) (h' : Grows b c) : Grows a c := by
  obtain ⟨t, e⟩ := h
  obtain ⟨t', e'⟩ := h'
  exact ⟨t ++ t', by rw [e', e, List.append_assoc]⟩

theorem Grows.text (s : Print.Stream) (t : List Char) : Grows s (s.text t) := ⟨t, rfl⟩

theorem ptrLoop_orUb {σ : Type} {P : σ → Prop} {f : Nat → σ → Res σ} (h : ∀ i a, P a → OrUb (f i a) P) (cur stop stride : Nat) {a : σ} (ha : P a) :
    OrUb (ptrLoop cur stop stride f a) P := by
  unfold ptrLoop
  generalize stop + 1 = fuel
  induction fuel generalizing cur a with
  | zero => exact .inr rfl
  | succ fuel ih =>
    rw [ptrLoopAux]
    split
    · exact .inl ⟨a, rfl, ha⟩
    · exact OrUb.bind (h _ _ ha) fun _ hc => ih _ hc

theorem dense_orUb {T : Type} (F : Print.Format T) (name : List Char) (v : View) (d : Buf T) (s : Print.Stream) : OrUb (Print.dense F name v d s) (Grows s) := by
  unfold Print.dense
  split
  · exact .inl ⟨_, rfl, .text _ _⟩
  · simp only []
    refine OrUb.next (P := fun _ => True) ?_ fun w1 => OrUb.next (P := fun _ => True) ?_ fun w2 => OrUb.bind (P := Grows s) ?_ fun s2 h2 =>
      .inl ⟨_, rfl, h2.trans (.text _ _)⟩
    · refine ptrLoop_orUb (fun i a _ => OrUb.next (P := fun _ => True) ?_ fun x => .inl ⟨_, rfl, trivial⟩) _ _ _ trivial
      refine ptrLoop_orUb (fun p x _ => ?_) _ _ _ trivial
      unfold Print.widthStep
      exact OrUb.next (Buf.orUb_read _ _) fun _ => OrUb.next (Buf.orUb_read _ _) fun _ => OrUb.next (Buf.orUb_write _ _ _) fun _ => .inl ⟨_, rfl, trivial⟩
    · unfold Print.widen
      refine ptrLoop_orUb (fun p x _ => ?_) _ _ _ trivial
      exact OrUb.next (Buf.orUb_read _ _) fun _ => (Buf.orUb_write _ _ _).mono fun _ _ => trivial
    · refine ptrLoop_orUb (fun i a ha => ?_) _ _ _ ?_
      · refine OrUb.bind (P := fun x : Nat × Print.Stream => Grows s x.2) ?_ fun x hx => .inl ⟨_, rfl, hx.trans (.text _ _)⟩
        refine ptrLoop_orUb (fun p x hx => ?_) _ _ _ ha
        unfold Print.cellStep
        exact OrUb.next (Buf.orUb_read _ _) fun _ => OrUb.next (Buf.orUb_read _ _) fun _ => .inl ⟨_, rfl, hx.trans (.text _ _)⟩
      · split
        · exact (Grows.text _ _).trans (.text _ _)
        · exact Grows.text _ _

/-- The tables are printed, or a matrix is not initialised. -/
theorem tables_orUb (T : Dense Nat) (D : Dense (Nat × Nat)) (s : Print.Stream) : OrUb (tables T D s) (Grows s) := by
  unfold tables
  refine OrUb.bind (dense_orUb _ _ _ _ _) fun s1 h1 => OrUb.bind (dense_orUb _ _ _ _ _) fun s2 h2 => .inl ⟨_, rfl, ?_⟩
  exact (((Grows.text _ _).trans h1).trans (.text _ _)).trans (((Grows.text _ _).trans h2).trans (.text _ _))

section

variable [Field R] [LinearOrder R] (E : Env) (b : Build) (rnd ex : R → R) (sort : List R → List Nat) (pow : Nat → R) (o : Show.Options)
  (w : Files.Disk R) (text : String → Option String)

/-- The first two lines of a run. -/
def opening (E : Env) (o : Show.Options) : List Char := greeting E.version "ShowPattern".toList ++ "matrix_file: ".toList ++ o.matrixFile.toList ++ ['\n']

theorem main_run (set : Option (Show.Settings R)) :
    main E b rnd ex sort pow .run set o w text =
      match body b rnd ex sort pow set o w { start with out := greeting E.version "ShowPattern".toList } with
      | (s, .error (.throw m)) => ⟨(caught E m (timer E s)).out, [], text, .ok 1⟩
      | (s, .error e) => ⟨s.out, [], text, .error e⟩
      | (s, .ok l) =>
        ⟨(((timer E s).text "\nBlasBooster successfully finished. Have a nice day.\n".toList).text ['\n']).out, [],
          if w.writable o.patternFile then fun p => if p = o.patternFile then some (String.join l) else text p else text, .ok 0⟩ := by
  unfold main
  rw [hello_eq E.version "ShowPattern".toList " ShowPattern\n".toList (by decide +kernel)]
  rfl

/-- The stream only grows, and only for type blocks there are more than the first two lines. -/
theorem body_out (set : Option (Show.Settings R)) (s : Print.Stream) :
    ∃ mid, (body b rnd ex sort pow set o w s).1.out = s.out ++ ("matrix_file: ".toList ++ o.matrixFile.toList ++ ['\n']) ++ mid ∧
      (o.patternType ≠ "type-blocks" → mid = []) := by
  have h0 : ((s.text ("matrix_file: ".toList ++ o.matrixFile.toList)).text ['\n']).out = s.out ++ ("matrix_file: ".toList ++ o.matrixFile.toList ++ ['\n']) := by
    simp only [Print.Stream.text, List.append_assoc]
  have none' : ∃ mid, ((s.text ("matrix_file: ".toList ++ o.matrixFile.toList)).text ['\n']).out =
      s.out ++ ("matrix_file: ".toList ++ o.matrixFile.toList ++ ['\n']) ++ mid ∧ (o.patternType ≠ "type-blocks" → mid = []) :=
    ⟨[], by rw [h0, List.append_nil], fun _ => rfl⟩
  unfold body
  simp only []
  cases Files.ofFile w o.matrixFile with
  | error e => exact none'
  | ok A =>
    cases set with
    | none => exact none'
    | some S =>
      dsimp only
      by_cases h1 : o.patternType = "elements"
      · rw [if_pos h1]; exact none'
      · rw [if_neg h1]
        by_cases h2 : o.patternType = "type-blocks"
        · rw [if_pos h2]
          cases found b rnd ex sort S A with
          | error e => exact none'
          | ok TD =>
            obtain ⟨T, D⟩ := TD
            dsimp only
            rcases tables_orUb T D ((s.text ("matrix_file: ".toList ++ o.matrixFile.toList)).text ['\n']) with ⟨s', e, t, ht⟩ | e
            · rw [e]; exact ⟨t, by rw [ht, h0], fun h => absurd h2 h⟩
            · rw [e]; exact none'
        · rw [if_neg h2]; exact none'

theorem found_picture (S : Show.Settings R) (width : Nat) (A : Dense R) :
    Show.typePicture b rnd ex sort pow S width A = (do
      let TD ← found b rnd ex sort S A
      Info.picture pow width A.dim.rows A.dim.cols TD.1 TD.2) := by
  unfold Show.typePicture found
  cases BlockSizeGenerator.mk? S.minBlock S.maxBlock with
  | error e => rfl
  | ok m =>
    simp only [bind_ok']
    cases blockSizes ex sort m.1 m.2 A with
    | error e => rfl
    | ok q =>
      simp only [bind_ok']
      cases Show.typedBlocks b rnd S.threshold A q.1 q.2 with
      | error e => rfl
      | ok B =>
        simp only [bind_ok']
        cases Info.typeMatrix typeList B.grid with
        | error e => rfl
        | ok T =>
          simp only [bind_ok']
          cases Info.dimMatrix b typeList (fun _ (M : Mat R) => (M.rows, M.cols)) B.grid with
          | error e => rfl
          | ok D => rfl

/-- What is written to the file is what `Show.patternText` says, if the run ends. -/
theorem body_pattern (S : Show.Settings R) (s : Print.Stream) :
    (body b rnd ex sort pow (some S) o w s).2 = Show.patternText b rnd ex sort pow S o w ∨ (body b rnd ex sort pow (some S) o w s).2 = .error .ub := by
  unfold body Show.patternText
  simp only []
  cases Files.ofFile w o.matrixFile with
  | error e => exact .inl rfl
  | ok A =>
    simp only [bind_ok']
    by_cases h1 : o.patternType = "elements"
    · rw [if_pos h1, if_pos h1]; exact .inl rfl
    · rw [if_neg h1, if_neg h1]
      by_cases h2 : o.patternType = "type-blocks"
      · rw [if_pos h2, if_pos h2, found_picture]
        cases found b rnd ex sort S A with
        | error e => exact .inl rfl
        | ok TD =>
          obtain ⟨T, D⟩ := TD
          dsimp only
          rcases tables_orUb T D ((s.text ("matrix_file: ".toList ++ o.matrixFile.toList)).text ['\n']) with ⟨s', e, t, ht⟩ | e
          · rw [e]; exact .inl rfl
          · rw [e]; exact .inr rfl
      · rw [if_neg h2, if_neg h2]; exact .inl rfl

/-- C132: every run of show_pattern that ends, whatever the options, files and settings: the screen shows the greeting, the name of the matrix
file, for type blocks possibly more, the time, and the last sentence (exit status 0) or the message of the exception and "Program was
aborted." (exit status 1, no file written); nothing is written to standard error, and files and exit status are those of C128. -/
theorem C132_show_text (set : Option (Show.Settings R)) :
    let L := main E b rnd ex sort pow .run set o w text
    L.err = [] ∧
    (L.exit = .ok 0 → ∃ mid, L.out = opening E o ++ mid ++ timeLine E ++ "\nBlasBooster successfully finished. Have a nice day.\n\n".toList ∧
      (o.patternType ≠ "type-blocks" → mid = [])) ∧
    (L.exit = .ok 1 → L.files = text ∧ ∃ mid m, L.out = opening E o ++ mid ++ timeLine E ++ aborted E m ∧ (o.patternType ≠ "type-blocks" → mid = [])) ∧
    (∀ n, L.exit = .ok n → n = 0 ∨ n = 1) ∧
    (∀ S n, set = some S → L.exit = .ok n → Show.main b rnd ex sort pow S o w text = (L.files, .ok n)) ∧
    (∀ A, set = none → Files.ofFile w o.matrixFile = .ok A → L.exit = .ok 1) := by
  intro L
  obtain ⟨mid, hm, hm0⟩ := body_out b rnd ex sort pow o w set { start with out := greeting E.version "ShowPattern".toList }
  have hb := fun S => body_pattern b rnd ex sort pow o w S { start with out := greeting E.version "ShowPattern".toList }
  have hL : L = _ := main_run E b rnd ex sort pow o w text set
  have hnone : ∀ A, set = none → Files.ofFile w o.matrixFile = .ok A →
      (body b rnd ex sort pow set o w { start with out := greeting E.version "ShowPattern".toList }).2 = .error (.throw "settings") := by
    rintro A rfl h
    unfold body
    rw [h]
  have hb' : ∀ S, set = some S → (body b rnd ex sort pow set o w { start with out := greeting E.version "ShowPattern".toList }).2 =
      Show.patternText b rnd ex sort pow S o w ∨ (body b rnd ex sort pow set o w { start with out := greeting E.version "ShowPattern".toList }).2 = .error .ub := by
    rintro S rfl; exact hb S
  have hpre : ∀ mid, greeting E.version "ShowPattern".toList ++ ("matrix_file: ".toList ++ o.matrixFile.toList ++ ['\n']) ++ mid = opening E o ++ mid := by
    intro mid; simp only [opening, List.append_assoc]
  dsimp only at hm
  rw [hpre] at hm
  clear hb hpre
  generalize body b rnd ex sort pow set o w { start with out := greeting E.version "ShowPattern".toList } = x at hL hm hnone hb'
  obtain ⟨s, r⟩ := x
  dsimp only at hm hnone hb'
  clear_value L
  subst hL
  match r with
  | .ok l =>
    dsimp only
    refine ⟨rfl, fun _ => ⟨mid, ?_, hm0⟩, (fun h => by cases h), (fun n h => by cases h; exact .inl rfl), ?_, fun A h1 h2 => by cases hnone A h1 h2⟩
    · have : "\nBlasBooster successfully finished. Have a nice day.\n\n".toList = "\nBlasBooster successfully finished. Have a nice day.\n".toList ++ ['\n'] := by decide +kernel
      rw [this]
      generalize "\nBlasBooster successfully finished. Have a nice day.\n".toList = y
      show (timer E s).out ++ y ++ ['\n'] = _
      rw [timer_out, hm]
      simp only [List.append_assoc]
    · intro S n hS hn
      cases hn
      rcases hb' S hS with h | h
      · rw [Show.main, ← h]
      · cases h
  | .error (.throw m) =>
    dsimp only
    refine ⟨rfl, (fun h => by cases h), fun _ => ⟨by dsimp only, mid, m, ?_, hm0⟩, (fun n h => by cases h; exact .inr rfl), ?_, fun _ _ _ => rfl⟩
    · rw [caught_out, timer_out, hm]
    · intro S n hS hn
      cases hn
      rcases hb' S hS with h | h
      · rw [Show.main, ← h]
      · cases h
  | .error .ub =>
    exact ⟨rfl, (fun h => by cases h), (fun h => by cases h), (fun n h => by cases h), (fun _ _ _ h => by cases h), fun A h1 h2 => by cases hnone A h1 h2⟩
  | .error .assertFail =>
    exact ⟨rfl, (fun h => by cases h), (fun h => by cases h), (fun n h => by cases h), (fun _ _ _ h => by cases h), fun A h1 h2 => by cases hnone A h1 h2⟩

/-- C132: without a run nothing but the greeting and the time is written to standard output, and no file is changed. -/
theorem C132_no_run (set : Option (Show.Settings R)) (m : List Char) :
    main E b rnd ex sort pow .help set o w text = ⟨greeting E.version "ShowPattern".toList ++ timeLine E, E.usage ++ ['\n'], text, .ok 0⟩ ∧
    main E b rnd ex sort pow (.wrong m) set o w text =
      ⟨greeting E.version "ShowPattern".toList ++ timeLine E, E.usage ++ "\nError in command line: ".toList ++ m ++ ['\n'], text, .ok 1⟩ := by
  have h := hello_eq E.version "ShowPattern".toList " ShowPattern\n".toList (by decide +kernel)
  constructor <;> simp only [main, h, timer_out] <;> rfl

/-- C132, negative: whether the pattern file can be written leaves no trace on the screen and in the exit status. -/
theorem C132_unwritable_leaves_no_trace (cmd : Command) (set : Option (Show.Settings R)) (w' : Files.Disk R) (h1 : w'.xml = w.xml) (h2 : w'.bin = w.bin) :
    let L := main E b rnd ex sort pow cmd set o w text
    let L' := main E b rnd ex sort pow cmd set o w' text
    L'.out = L.out ∧ L'.err = L.err ∧ L'.exit = L.exit := by
  have hf : Files.ofFile w' o.matrixFile = Files.ofFile w o.matrixFile := by simp only [Files.ofFile, h1, h2]
  have hb : body b rnd ex sort pow set o w' = body b rnd ex sort pow set o w := by
    funext s; simp only [body, hf]
  unfold main
  rw [hb]
  cases cmd with
  | wrong m => exact ⟨rfl, rfl, rfl⟩
  | help => exact ⟨rfl, rfl, rfl⟩
  | run =>
    dsimp only
    split <;> exact ⟨rfl, rfl, rfl⟩

end

theorem shown_sat {T : Type} (F : Print.Format T) (name : List Char) {A : Dense T} {r c : Nat} {f : Nat → Nat → T} (h : A.Is r c f) (s : Print.Stream)
    (hs : s.full = false) : ∃ s', Print.dense F name A.view A.data s = .ok s' ∧ s'.full = false ∧ s'.out = s.out ++ shown F r c f := by
  have hv : A.view.rows = r := by rw [h.view_rows]; rfl
  have hc : A.view.cols = c := by rw [h.view_rows]; rfl
  obtain ⟨h1, h2⟩ := Print.dense_sat F name A.view A.data f h.fits (by
    intro i j hi hj
    exact h.elems i j (by omega) (by omega)) s
  rw [hv, hc] at h1 h2
  by_cases hh : r ≤ 100 ∧ c ≤ 100
  · obtain ⟨s', e, -, -, g1, g2⟩ := h1 hh.1 hh.2
    refine ⟨s', e, g1.trans hs, ?_⟩
    rw [g2, shown, if_pos hh, hs]
    simp
  · refine ⟨_, h2 (by omega), hs, ?_⟩
    rw [shown, if_neg hh]; rfl

theorem tables_sat {T : Dense Nat} {D : Dense (Nat × Nat)} {r c : Nat} {n : Nat → Nat → Nat} {d : Nat → Nat → Nat × Nat} (hT : T.Is r c n) (hD : D.Is r c d)
    (s : Print.Stream) (hs : s.full = false) : ∃ s', tables T D s = .ok s' ∧ s'.out = s.out ++ tableText r c n d := by
  obtain ⟨s1, e1, f1, o1⟩ := shown_sat numbers "Matrix<Dense,int>".toList hT (s.text "type matrix: ".toList) hs
  obtain ⟨s2, e2, f2, o2⟩ := shown_sat Print.Format.dim "Matrix<Dense,Dimension>".toList hD ((s1.text ['\n']).text "dimension matrix: ".toList) f1
  refine ⟨s2.text ['\n'], ?_, ?_⟩
  · unfold tables
    rw [e1, bind_ok']
    simp only [e2, bind_ok']
    rfl
  · show s2.out ++ ['\n'] = _
    rw [o2]
    show (s1.out ++ ['\n'] ++ "dimension matrix: ".toList) ++ shown Print.Format.dim r c d ++ ['\n'] = _
    rw [o1]
    show (s.out ++ "type matrix: ".toList ++ shown numbers r c n ++ ['\n'] ++ "dimension matrix: ".toList) ++ shown Print.Format.dim r c d ++ ['\n'] = _
    unfold tableText
    have : "\ndimension matrix: ".toList = '\n' :: "dimension matrix: ".toList := by decide +kernel
    rw [this]
    generalize "dimension matrix: ".toList = y
    simp only [List.append_assoc, List.cons_append, List.nil_append]

section

variable [Field R] [LinearOrder R] [IsStrictOrderedRing R] (E : Env) (b : Build) (rnd ex : R → R) (sort : List R → List Nat) (pow : Nat → R)
  (S : Show.Settings R) (o : Show.Options) (w : Files.Disk R) (text : String → Option String)

/-- C132, type "type-blocks": if the block sizes partition the matrix and the border fits, the screen shows, between the name of the file and the
time, the matrix of the types of the blocks and the matrix of their dimensions.  (Missing: other block sizes and borders, where the program
does not end normally, `C128_small_is_ub`, `C128_wide_border_fails`.) -/
theorem C132_tables_partial (hrnd : rnd 0 = 0) {A : Dense R} {f : Nat → Nat → R} {rs cs : List Nat} (hR : Files.ofFile w o.matrixFile = .ok A)
    (hA : A.Is rs.sum cs.sum f) (hlim : 2 * S.minBlock ≤ S.maxBlock) (hbs : blockSizes ex sort S.minBlock S.maxBlock A = .ok (rs, cs)) (hp : Partition rs cs)
    (hfit : ∀ m n, m ∈ rs → n ∈ cs → Info.BorderFits o.borderWidth m n)
    (hD : 0 ≤ S.threshold.sigDouble) (hDF : S.threshold.sigDouble < S.threshold.sigSingle) (h1 : 1 ≤ S.threshold.denseDDouble) (h2 : 1 ≤ S.threshold.denseDSingle)
    (ht : o.patternType = "type-blocks") :
    ∃ (n : Nat → Nat → Nat), (main E b rnd ex sort pow .run (some S) o w text).exit = .ok 0 ∧
      (main E b rnd ex sort pow .run (some S) o w text).out = opening E o ++ tableText rs.length cs.length n (fun i j => (rs.getD i 0, cs.getD j 0)) ++
        timeLine E ++ "\nBlasBooster successfully finished. Have a nice day.\n\n".toList ∧
      ∀ i j, i < rs.length → j < cs.length →
        Show.TypeNumber S.threshold (rs.getD i 0) (cs.getD j 0) (fun a b => f (offs rs i + a) (offs cs j + b)) (n i j) := by
  obtain ⟨B, T, D, n, eB, eT, eD, oT, oD, hT, hDm, hn⟩ := Show.types_dims b rnd hrnd S.threshold A f rs cs hA (Show.ofFile_col hR) hp hD hDF h1 h2
  have hs := hp.rowsFit
  obtain ⟨P, g, eP, hP, hg⟩ := Info.C76_picture_partial pow o.borderWidth hT oT hDm oD (fun i hi => hp.rowPos _ (getD_mem hi))
    (fun j hj => ⟨hp.colPos _ (getD_mem hj), hp.colsFit _ (getD_mem hj)⟩) (by omega) (fun i j hi hj => hfit _ _ (getD_mem hi) (getD_mem hj))
  obtain ⟨l, el, hl⟩ := Show.generate_image S.pattern hP (by omega)
  have em : BlockSizeGenerator.mk? S.minBlock S.maxBlock = .ok (S.minBlock, S.maxBlock) := by simp [BlockSizeGenerator.mk?]; omega
  have ht' : o.patternType ≠ "elements" := by rw [ht]; decide
  have hfound : found b rnd ex sort S A = .ok (T, D) := by
    simp only [found, em, hbs, eB, eT, eD, bind_ok']; rfl
  obtain ⟨s', es, os⟩ := tables_sat hT hDm (((({ start with out := greeting E.version "ShowPattern".toList } : Print.Stream).text
    ("matrix_file: ".toList ++ o.matrixFile.toList)).text ['\n'])) rfl
  have hbody : body b rnd ex sort pow (some S) o w { start with out := greeting E.version "ShowPattern".toList } = (s', .ok l) := by
    unfold body
    simp only [hR, if_neg ht', if_pos ht, hfound, es, hA.rows, hA.cols, eP, bind_ok', el]
  rw [main_run, hbody]
  refine ⟨n, rfl, ?_, hn⟩
  show (timer E s').out ++ _ ++ _ = _
  rw [timer_out, os]
  have : "\nBlasBooster successfully finished. Have a nice day.\n\n".toList = "\nBlasBooster successfully finished. Have a nice day.\n".toList ++ ['\n'] := by decide +kernel
  rw [this]
  generalize "\nBlasBooster successfully finished. Have a nice day.\n".toList = y
  simp only [Print.Stream.text, opening, List.append_assoc]

end

/-- C132: the numbers of the types on the screen can be read back: the words of the lines between the titles are the numbers of the types, and the
dimensions of the blocks. -/
theorem C132_tables_readable (r c : Nat) (n : Nat → Nat → Nat) (d : Nat → Nat → Nat × Nat) (h1 : r ≤ 100) (h2 : c ≤ 100) :
    tableText r c n d = "type matrix: \n".toList ++ (List.range r).flatMap (fun i => Print.line numbers r c n i ++ ['\n']) ++ "\n\ndimension matrix: \n".toList ++
      (List.range r).flatMap (fun i => Print.line Print.Format.dim r c d i ++ ['\n']) ++ "\n\n".toList ∧
    ∀ i, i < r → Print.words (Print.line numbers r c n i) = (List.range c).map (fun j => Print.digits (n i j)) ∧
      Print.words (Print.line Print.Format.dim r c d i) = (List.range c).map (fun j => Print.digits (d i j).1 ++ 'x' :: Print.digits (d i j).2) := by
  constructor
  · have a1 : "type matrix: \n".toList = "type matrix: ".toList ++ ['\n'] := by decide +kernel
    have a2 : "\n\ndimension matrix: \n".toList = '\n' :: "\ndimension matrix: ".toList ++ ['\n'] := by decide +kernel
    have a3 : "\n\n".toList = ['\n', '\n'] := by decide +kernel
    unfold tableText shown
    rw [if_pos ⟨h1, h2⟩, if_pos ⟨h1, h2⟩, a1, a2, a3]
    unfold Print.block
    generalize "type matrix: ".toList = x
    generalize "\ndimension matrix: ".toList = y
    simp only [List.append_assoc, List.cons_append, List.nil_append]
  · intro i hi
    refine ⟨?_, Print.C77_dimensions_partial r c d i hi⟩
    refine Print.C77_readable numbers r c n i hi (fun w x hw => ⟨w - (Print.digits x).length - 1, ?_⟩) (fun x => ?_) ?_
    · simp only [numbers, Print.Format.number, Print.pad] at hw ⊢
      rw [show w - (Print.digits x).length = w - (Print.digits x).length - 1 + 1 by omega, List.replicate_succ]
      rfl
    · show Nat.toDigits 10 x ≠ []
      exact Nat.toDigits_ne_nil
    · intro x ch hch e
      subst e
      have := Nat.isDigit_of_mem_toDigits (b := 10) (by decide) (by decide) hch
      exact absurd this (by decide)

section

variable [Zero R] [Add R] (E : Env) (asserts : Bool) (x y : R) (o : Files.Options R) (w : Files.Disk R)

/-- C132: generate_matrix, whatever the options: files and exit status are those of C127; standard output is the greeting and the last sentence (exit
status 0) or the message of the exception and "Program was aborted." (exit status 1); without a run only the greeting. -/
theorem C132_generate_text :
    let L := generate E asserts x y .run o w
    L.err = [] ∧ L.files = (Files.main asserts x y o w).1 ∧ L.exit = (Files.main asserts x y o w).2 ∧
    (L.exit = .ok 0 → L.out = greeting E.version "Matrix Generator".toList ++ "\n BlasBooster successfully finished. Have a nice day.\n\n".toList) ∧
    (L.exit = .ok 1 → ∃ m, Files.matrixOf asserts x y o = .error (.throw m) ∧ L.out = greeting E.version "Matrix Generator".toList ++ aborted E m) ∧
    generate E asserts x y .help o w = ⟨greeting E.version "Matrix Generator".toList, E.usage ++ ['\n'], w, .ok 0⟩ ∧
    ∀ m, generate E asserts x y (.wrong m) o w =
      ⟨greeting E.version "Matrix Generator".toList, E.usage ++ "\nError in command line: ".toList ++ m ++ ['\n'], w, .ok 1⟩ := by
  have h := hello_eq E.version "Matrix Generator".toList " Matrix Generator\n".toList (by decide +kernel)
  intro L
  have hL : L = generate E asserts x y .run o w := rfl
  clear_value L
  refine and_assoc.1 (and_assoc.1 (and_assoc.1 (and_assoc.1 ⟨?_, ?_, fun m => ?_⟩)))
  · unfold generate at hL
    rw [h] at hL
    unfold Files.main
    cases e0 : Files.matrixOf asserts x y o with
    | error e =>
      rw [e0] at hL
      cases e with
      | throw m => subst hL; exact ⟨⟨⟨⟨rfl, rfl⟩, rfl⟩, (fun h => by cases h)⟩, fun _ => ⟨m, rfl, by dsimp only; rw [caught_out]⟩⟩
      | ub => subst hL; exact ⟨⟨⟨⟨rfl, rfl⟩, rfl⟩, (fun h => by cases h)⟩, fun h => by cases h⟩
      | assertFail => subst hL; exact ⟨⟨⟨⟨rfl, rfl⟩, rfl⟩, (fun h => by cases h)⟩, fun h => by cases h⟩
    | ok A =>
      rw [e0] at hL
      dsimp only at hL ⊢
      cases e : Files.dump A.data 0 A.dim.fullSize with
      | error e' =>
        rw [e] at hL
        subst hL
        refine ⟨⟨⟨⟨rfl, rfl⟩, rfl⟩, (fun h => by cases h)⟩, fun h => by cases h⟩
      | ok l =>
        rw [e] at hL
        subst hL
        refine ⟨⟨⟨⟨rfl, rfl⟩, rfl⟩, fun _ => ?_⟩, (fun h => by cases h)⟩
        have : "\n BlasBooster successfully finished. Have a nice day.\n\n".toList = "\n BlasBooster successfully finished. Have a nice day.\n".toList ++ ['\n'] := by decide +kernel
        rw [this]
        generalize "\n BlasBooster successfully finished. Have a nice day.\n".toList = z
        simp only [Print.Stream.text, List.append_assoc]
  · simp only [generate, h]; rfl
  · simp only [generate, h]; rfl

/-- C132, negative: whether the matrix file can be written leaves no trace on the screen and in the exit status. -/
theorem C132_generate_unwritable_leaves_no_trace (cmd : Command) (w' : Files.Disk R) :
    let L := generate E asserts x y cmd o w
    let L' := generate E asserts x y cmd o w'
    L'.out = L.out ∧ L'.err = L.err ∧ L'.exit = L.exit := by
  unfold generate
  cases cmd with
  | wrong m => exact ⟨rfl, rfl, rfl⟩
  | help => exact ⟨rfl, rfl, rfl⟩
  | run =>
    dsimp only
    split
    · exact ⟨rfl, rfl, rfl⟩
    · exact ⟨rfl, rfl, rfl⟩
    · split <;> exact ⟨rfl, rfl, rfl⟩

end

/-- The screen of a run with type blocks, in full. -/
example : (main ⟨"1".toList, [], "0.5".toList, fun m => m.toList⟩ .debug id id sortIdx (fun t => (1 : ℚ) / 10 ^ t) .run
    (some ⟨Show.exColours, 1, 2, BB.Settings.default (1/2) (1/10)⟩) ⟨"m.xml", "p.xpm", "type-blocks", 0⟩ Show.exDisk (fun _ => none)).out =
    "\nBlasBooster 1 ShowPattern\n\nmatrix_file: m.xml\ntype matrix: \n 6 2\n 0 0\n\n\ndimension matrix: \n   1x1   1x2\n   1x1   1x2\n\n\nTotal time: 0.5 s\n\nBlasBooster successfully finished. Have a nice day.\n\n".toList := by
  decide +kernel

/-- The hypotheses of `C132_tables_partial` are met. -/
example : ∃ (rs cs : List Nat) (n : Nat → Nat → Nat), rs.sum = 2 ∧ cs.sum = 3 ∧
    (main ⟨"1".toList, [], "0.5".toList, fun m => m.toList⟩ .debug id id sortIdx (fun t => (1 : ℚ) / 10 ^ t) .run
      (some ⟨Show.exColours, 1, 2, BB.Settings.default (1/2) (1/10)⟩) ⟨"m.xml", "p.xpm", "type-blocks", 1⟩ Show.exDisk (fun _ => none)).out =
    opening ⟨"1".toList, [], "0.5".toList, fun m => m.toList⟩ ⟨"m.xml", "p.xpm", "type-blocks", 1⟩ ++
      tableText rs.length cs.length n (fun i j => (rs.getD i 0, cs.getD j 0)) ++ timeLine ⟨"1".toList, [], "0.5".toList, fun m => m.toList⟩ ++
      "\nBlasBooster successfully finished. Have a nice day.\n\n".toList := by
  obtain ⟨A, e, h⟩ := Show.exDisk_reads
  obtain ⟨rs, cs, hbs, h2, h3, p1, p2⟩ := C39_matrix_partial id sortIdx sortIdx_spec 1 2 (by decide) A 2 3 _ h (by decide) (by decide)
  have le : ∀ (l : List Nat) x, x ∈ l → x ≤ l.sum := fun l x hx => List.single_le_sum (by simp) _ hx
  have hp : Partition rs cs := ⟨p1, p2, by rw [h2]; decide, fun x hx => lt_of_le_of_lt (le _ _ hx) (by rw [h3]; decide)⟩
  obtain ⟨n, -, h4, -⟩ := C132_tables_partial ⟨"1".toList, [], "0.5".toList, fun m => m.toList⟩ .debug id id sortIdx (fun t => (1 : ℚ) / 10 ^ t)
    ⟨Show.exColours, 1, 2, BB.Settings.default (1/2) (1/10)⟩ ⟨"m.xml", "p.xpm", "type-blocks", 1⟩ Show.exDisk (fun _ => none) rfl e (by rw [h2, h3]; exact h) (by decide) hbs hp
    (fun m n hm hn => by have := p1 m hm; have := p2 n hn; unfold Info.BorderFits; dsimp only; omega) (by norm_num [BB.Settings.default]) (by norm_num [BB.Settings.default])
    (by norm_num [BB.Settings.default]) (by norm_num [BB.Settings.default]) rfl
  exact ⟨rs, cs, n, h2, h3, h4⟩

end BB.ShowConsole
