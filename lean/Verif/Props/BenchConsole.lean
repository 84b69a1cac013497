import Verif.Model.BenchConsole
import Verif.Props.BenchMain
import Verif.Props.Table

/-! C130: what the user of the benchmark program reads on the terminal. -/
namespace BB.BenchConsole
open Bench (With Routines Action)
open Files (Disk)
open Table (Stream Fmt column digits headerText lineText Between)
variable {F : Type}

/-! ### The specification -/

/-- The text in front of everything. -/
def greeting (version : List Char) : List Char := "\nBlasBooster ".toList ++ version ++ " Benchmark\n\n".toList

/-- The lines for the results of the executions number `n`, `n+1`, …: number of the pair, name of the action, time, norms, details. -/
def linesFrom (E : Env) (d : Int) : Nat → List Bench.Row → List Char
  | _, [] => []
  | n, r :: T => lineText E.fmt d r.matrix r.name.toList ⟨(E.clock n).1, r.max, r.two, (E.clock n).2⟩ ++ linesFrom E d (n + 1) T

/-- The beginning of a line. -/
def lineStart (i : Nat) (name : String) : List Char := column 10 (digits i) ++ column 30 name.toList

theorem linesFrom_append (E : Env) (d : Int) (n : Nat) (T U : List Bench.Row) : linesFrom E d n (T ++ U) = linesFrom E d n T ++ linesFrom E d (n + T.length) U := by
  induction T generalizing n with
  | nil => simp [linesFrom]
  | cons r T ih => simp only [List.cons_append, linesFrom, ih, List.append_assoc, List.length_cons]; rw [show n + 1 + T.length = n + (T.length + 1) by omega]

/-- The text agrees with the results so far. -/
structure Agrees (E : Env) (d : Int) (pre : List Char) (s : State) : Prop where
  between : Between d s.cout
  out : s.cout.out = pre ++ linesFrom E d 0 s.out.rows

/-- The outcome of loops over executions `0`, …, the `k`-th of which writes a line that begins with `start k`: the same results as without a
terminal; the text agrees, followed by the beginning of a line if an action failed; `m` executions were successful if all were. -/
structure Outcome (E : Env) (d : Int) (pre : List Char) (start : Nat → List Char) (m : Nat) (s : State) (x : State × Res Unit) (y : Bench.Out × Res Unit) : Prop where
  out : x.1.out = y.1
  res : x.2 = y.2
  good : y.2 = .ok () → Agrees E d pre x.1 ∧ y.1.rows.length = s.out.rows.length + m
  bad : ∀ e, y.2 = .error e → Between d x.1.cout ∧ ∃ k, k < m ∧ y.1.rows.length = s.out.rows.length + k ∧
    x.1.cout.out = pre ++ linesFrom E d 0 y.1.rows ++ start k

theorem other_outcome (E : Env) (d : Int) (wd : Bool) (i : Nat) (A B refC : Dense ℝ) (a : Action ℝ) (pre : List Char) (s : State) (h : Agrees E d pre s) :
    Outcome E d pre (fun _ => lineStart i a.name) 1 s (other E d wd i A B refC a s)
      (match Bench.compare wd i A B refC a s.out with | .ok o => (o, .ok ()) | .error e => (s.out, .error e)) := by
  unfold other Bench.compare
  have hb := Table.begin_eq i a.name.toList h.between
  have failed : ∀ e, Outcome E d pre (fun _ => lineStart i a.name) 1 s (⟨Table.begin i a.name.toList s.cout, s.out⟩, .error e) (s.out, .error e) := by
    intro e
    refine ⟨rfl, rfl, (fun h => by cases h), fun e' _ => ⟨?_, 0, Nat.one_pos, rfl, ?_⟩⟩
    · rw [hb]; exact ⟨h.between.left, h.between.field, h.between.width, h.between.acc⟩
    · rw [hb]; simp only [lineStart]; rw [h.out]
  cases a.execute A B with
  | error e => exact failed e
  | ok C =>
    simp only [bind_ok']
    cases Dense.binop (· - ·) C refC (Dense.empty .col) with
    | error e => exact failed e
    | ok diff =>
      simp only [bind_ok']
      cases (SMat.dense diff).norm .max with
      | error e => exact failed e
      | ok x =>
        simp only [bind_ok']
        cases (SMat.dense diff).norm .two with
        | error e => exact failed e
        | ok y =>
          simp only [bind_ok', pure_ok']
          refine ⟨rfl, rfl, fun _ => ⟨⟨?_, ?_⟩, by simp⟩, fun e h => by cases h⟩
          · dsimp only
            rw [Table.finish_eq E.fmt i a.name.toList _ h.between]
            exact ⟨h.between.left, h.between.field, h.between.width, h.between.acc⟩
          · dsimp only
            rw [Table.finish_eq E.fmt i a.name.toList _ h.between]
            dsimp only
            rw [h.out, linesFrom_append, Nat.zero_add]
            simp [linesFrom]

/-- One more execution in front. -/
theorem Outcome.cons {E : Env} {d : Int} {pre : List Char} {start : Nat → List Char} {m : Nat} {s s1 : State} {x : State × Res Unit} {y : Bench.Out × Res Unit}
    (h : Outcome E d pre (fun k => start (k + 1)) m s1 x y) (hs : s1.out.rows.length = s.out.rows.length + 1) : Outcome E d pre start (m + 1) s x y := by
  obtain ⟨h1, h2, h3, h4⟩ := h
  refine ⟨h1, h2, fun hy => ⟨(h3 hy).1, by rw [(h3 hy).2, hs]; omega⟩, fun e he => ?_⟩
  obtain ⟨b, k, hk, hl, ht⟩ := h4 e he
  exact ⟨b, k + 1, by omega, by rw [hl, hs]; omega, ht⟩

/-- The name of the `k`-th action. -/
def nameAt (as : List (Action ℝ)) (k : Nat) : String := (as[k]?.map Action.name).getD ""

theorem others_outcome (E : Env) (d : Int) (wd : Bool) (i : Nat) (A B refC : Dense ℝ) (as : List (Action ℝ)) (pre : List Char) (s : State) (h : Agrees E d pre s) :
    Outcome E d pre (fun k => lineStart i (nameAt as k)) as.length s (others E d wd i A B refC as s) (Bench.others wd i A B refC as s.out) := by
  induction as generalizing s with
  | nil => exact ⟨rfl, rfl, fun _ => ⟨h, rfl⟩, fun e h => by cases h⟩
  | cons a as ih =>
    have h1 := other_outcome E d wd i A B refC a pre s h
    rw [others, Bench.others]
    cases hc : Bench.compare wd i A B refC a s.out with
    | error e =>
      rw [hc] at h1
      generalize other E d wd i A B refC a s = x at h1
      obtain ⟨x1, x2⟩ := x
      obtain ⟨g1, g2, g3, g4⟩ := h1
      dsimp only at g1 g2 g3 g4 ⊢
      subst g2
      refine ⟨g1, rfl, (fun h => by cases h), fun e' he => ?_⟩
      obtain ⟨b, k, hk, hl, ht⟩ := g4 e' he
      obtain rfl : k = 0 := by omega
      exact ⟨b, 0, by simp, hl, ht⟩
    | ok o =>
      rw [hc] at h1
      generalize other E d wd i A B refC a s = x at h1
      obtain ⟨x1, x2⟩ := x
      obtain ⟨g1, g2, g3, -⟩ := h1
      dsimp only at g1 g2 g3 ⊢
      subst g2 g1
      exact (ih x1 (g3 rfl).1).cons (g3 rfl).2

theorem pair_outcome (E : Env) (d : Int) (wd : Bool) (a : Action ℝ) (as : List (Action ℝ)) (i : Nat) (A B : Dense ℝ) (pre : List Char) (s : State)
    (h : Agrees E d pre s) : Outcome E d pre (fun k => lineStart i (nameAt (a :: as) k)) (as.length + 1) s (pair E d wd a as i A B s) (Bench.matrixStep wd a as i A B s.out) := by
  unfold pair Bench.matrixStep
  cases a.execute A B with
  | error e =>
    have hb := Table.begin_eq i a.name.toList h.between
    refine ⟨rfl, rfl, (fun h => by cases h), fun e' _ => ⟨?_, 0, by omega, rfl, ?_⟩⟩
    · dsimp only; rw [hb]; exact ⟨h.between.left, h.between.field, h.between.width, h.between.acc⟩
    · dsimp only; rw [hb]; simp only [lineStart]; rw [h.out]; rfl
  | ok refC =>
    dsimp only
    refine Outcome.cons (s1 := ⟨_, _⟩) (others_outcome E d wd i A B refC as pre ⟨_, _⟩ ⟨?_, ?_⟩) (by simp)
    · dsimp only
      rw [Table.finishFirst_eq E.fmt i a.name.toList _ h.between]
      exact ⟨h.between.left, h.between.field, h.between.width, h.between.acc⟩
    · dsimp only
      rw [Table.finishFirst_eq E.fmt i a.name.toList _ h.between]
      dsimp only
      rw [h.out, linesFrom_append, Nat.zero_add]
      simp [linesFrom]

theorem pairs_outcome (E : Env) (d : Int) (wd : Bool) (a : Action ℝ) (as : List (Action ℝ)) (pre : List Char) (la lb : List (Dense ℝ)) (i : Nat) (s : State)
    (h : Agrees E d pre s) :
    let x := pairs E d wd a as i la lb s
    let y := Bench.matrices wd a as i la lb s.out
    x.1.out = y.1 ∧ x.2 = y.2 ∧ (y.2 = .ok () → Agrees E d pre x.1) ∧
    ∀ e, y.2 = .error e → Between d x.1.cout ∧ ∃ j k, k < as.length + 1 ∧ y.1.rows.length = s.out.rows.length + (j * (as.length + 1) + k) ∧
      x.1.cout.out = pre ++ linesFrom E d 0 y.1.rows ++ lineStart (i + j) (nameAt (a :: as) k) := by
  induction la generalizing i lb s with
  | nil => exact ⟨rfl, rfl, fun _ => h, fun e h => by cases h⟩
  | cons A la ih =>
    cases lb with
    | nil => exact ⟨rfl, rfl, fun _ => h, fun e h => by cases h⟩
    | cons B lb =>
      have h1 := pair_outcome E d wd a as i A B pre s h
      dsimp only
      rw [pairs, Bench.matrices]
      generalize pair E d wd a as i A B s = x at h1
      generalize Bench.matrixStep wd a as i A B s.out = y at h1
      obtain ⟨x1, x2⟩ := x
      obtain ⟨y1, y2⟩ := y
      obtain ⟨g1, g2, g3, g4⟩ := h1
      dsimp only at g1 g2 g3 g4
      subst g2 g1
      cases x2 with
      | error e =>
        refine ⟨rfl, rfl, (fun h => by cases h), fun e' he => ?_⟩
        obtain ⟨b, k, hk, hl, ht⟩ := g4 e' he
        exact ⟨b, 0, k, hk, by rw [Nat.zero_mul, Nat.zero_add]; exact hl, ht⟩
      | ok u =>
        obtain ⟨i1, i2, i3, i4⟩ := ih lb (i + 1) x1 (g3 rfl).1
        refine ⟨i1, i2, i3, fun e he => ?_⟩
        obtain ⟨b, j, k, hk, hl, ht⟩ := i4 e he
        refine ⟨b, j + 1, k, hk, ?_, by rw [ht, show i + 1 + j = i + (j + 1) by omega]⟩
        rw [hl, (g3 rfl).2, Nat.succ_mul]; omega

theorem loops_outcome (E : Env) (d : Int) (wd : Bool) (acts : List (Action ℝ)) (sets : Provider.Sets ℝ) (pre : List Char) (s : State) (h : Agrees E d pre s)
    (h0 : s.out.rows = []) :
    (loops E d wd acts sets s).1.out = (Bench.run wd acts sets s.out).1 ∧ (loops E d wd acts sets s).2 = (Bench.run wd acts sets s.out).2 ∧
    ((Bench.run wd acts sets s.out).2 = .ok () → Agrees E d pre (loops E d wd acts sets s).1) ∧
    ∀ e, (Bench.run wd acts sets s.out).2 = .error e → Between d (loops E d wd acts sets s).1.cout ∧ ∃ start,
      (loops E d wd acts sets s).1.cout.out = pre ++ linesFrom E d 0 (Bench.run wd acts sets s.out).1.rows ++ start ∧
      (start = [] ∧ (Bench.run wd acts sets s.out).1 = s.out ∨ ∃ i k name, (acts.map Action.name)[k]? = some name ∧
        (Bench.run wd acts sets s.out).1.rows.length = i * acts.length + k ∧ start = lineStart i name) := by
  have same : ∀ r : Res Unit, (∀ u, r ≠ .ok u) → (s, r).1.out = (s.out, r).1 ∧ (s, r).2 = (s.out, r).2 ∧ ((s.out, r).2 = .ok () → Agrees E d pre (s, r).1) ∧
      ∀ e, (s.out, r).2 = .error e → Between d (s, r).1.cout ∧ ∃ start, (s, r).1.cout.out = pre ++ linesFrom E d 0 (s.out, r).1.rows ++ start ∧
        (start = [] ∧ (s.out, r).1 = s.out ∨ ∃ i k name, (acts.map Action.name)[k]? = some name ∧
        (s.out, r).1.rows.length = i * acts.length + k ∧ start = lineStart i name) := by
    intro r hr
    exact ⟨rfl, rfl, fun h => absurd h (hr _), fun e _ => ⟨h.between, [], by rw [List.append_nil]; exact h.out, .inl ⟨rfl, rfl⟩⟩⟩
  unfold loops Bench.run
  cases sets.get "A" with
  | error e => exact same _ (by simp)
  | ok la =>
    dsimp only
    cases sets.get "B" with
    | error e => exact same _ (by simp)
    | ok lb =>
      dsimp only
      unfold Bench.runOn
      split
      · exact same _ (by simp)
      · split
        · exact same _ (by simp)
        · cases acts with
          | nil => exact same _ (by simp)
          | cons a as =>
            dsimp only
            obtain ⟨h1, h2, h3, h4⟩ := pairs_outcome E d wd a as pre la lb 0 s h
            refine ⟨h1, h2, h3, fun e he => ?_⟩
            obtain ⟨b, j, k, hk, hl, ht⟩ := h4 e he
            rw [Nat.zero_add] at ht
            refine ⟨b, _, ht, .inr ⟨j, k, nameAt (a :: as) k, ?_, ?_, rfl⟩⟩
            · have : (a :: as)[k]? = some ((a :: as)[k]'(by simpa using hk)) := List.getElem?_eq_getElem _
              rw [List.getElem?_map, nameAt, this]; rfl
            · rw [hl, h0]; simp

theorem put2 {s : Stream} (h : s.width = 0) (a b : List Char) : (s.put a).put b = { s with out := s.out ++ (a ++ b) } := by
  rw [Table.put0 (s := s) h, Table.put0 (by exact h), List.append_assoc]

theorem put4 {s : Stream} (h : s.width = 0) (a b c e : List Char) : ((((s.put a).put b).put c).put e).out = s.out ++ (a ++ (b ++ c ++ e)) := by
  rw [put2 h, put2 (by exact h)]
  simp only [List.append_assoc]

theorem hello_eq (v : List Char) : (Stream.init.put ("\nBlasBooster ".toList ++ v ++ " Benchmark\n".toList)).put ['\n'] =
    { Stream.init with out := greeting v } := by
  rw [put2 (s := Stream.init) rfl]
  have : " Benchmark\n\n".toList = " Benchmark\n".toList ++ ['\n'] := by decide +kernel 
  unfold greeting
  rw [this]
  generalize "\nBlasBooster ".toList = x
  generalize " Benchmark\n".toList = y
  simp only [Stream.init, List.nil_append, List.append_assoc]

/-- C130: for every configuration, what the program leaves behind is what it computes (`BenchMain.main`, C129), and its standard output is, exactly:
after success the greeting, the heading, one line per execution and the last sentence; if the settings cannot be built the
greeting and the message of the exception, without a heading; if something fails later the greeting, the heading, the lines of the executions so
far, the beginning of the line of the action that failed (the next one in order; nothing if no action was started), and the message.  Nothing is written to the
standard error. -/
theorem C130_text [Zero F] [One F] (E : Env) (asserts : Bool) (w : With) (rt : Routines ℝ F) (block : Action ℝ) (reps : Nat) (n : Int)
    (c : BenchMain.Config ℝ) (d : Disk ℝ) :
    let M := BenchMain.main asserts w rt block reps c d
    let L := main E asserts w rt block reps (.run n) c d
    L.err = [] ∧ L.disk = M.disk ∧ L.exit = M.exit ∧
    (M.exit = .ok 0 → L.out = greeting E.version ++ headerText ++ linesFrom E n 0 M.rows ++
      "\n BlasBooster successfully finished. Have a nice day.\n\n".toList) ∧
    (M.exit = .ok 1 → ∃ m, (M.rows = [] ∧ M.disk = d ∧ L.out = greeting E.version ++ E.words m ++ "\nProgram was aborted.\n".toList) ∨
      ∃ start, (start = [] ∧ M.rows = [] ∨
        ∃ i k name, ((Bench.provide w rt block reps c.actions).map Action.name)[k]? = some name ∧
          M.rows.length = i * (Bench.provide w rt block reps c.actions).length + k ∧ start = lineStart i name) ∧
        L.out = greeting E.version ++ headerText ++ linesFrom E n 0 M.rows ++ start ++ E.words m ++ "\nProgram was aborted.\n".toList) := by
  intro M L
  have hM : M = BenchMain.main asserts w rt block reps c d := rfl
  have hL : L = main E asserts w rt block reps (.run n) c d := rfl
  clear_value M L
  simp only [main, BenchMain.main, hello_eq] at hM hL
  cases hp : Provider.provider asserts (BenchMain.resolve d c.matrices) with
  | error e =>
    simp only [hp] at hM hL
    subst hM hL
    cases e with
    | throw m =>
      simp only [finally', BenchMain.status]
      refine ⟨trivial, trivial, trivial, (fun h => by cases h), fun _ => ⟨m, .inl ⟨trivial, trivial, ?_⟩⟩⟩
      rw [put4 rfl]
      simp only [List.append_assoc]
      rfl
    | ub => exact ⟨rfl, rfl, rfl, (fun h => by cases h), (fun h => by cases h)⟩
    | assertFail => exact ⟨rfl, rfl, rfl, (fun h => by cases h), (fun h => by cases h)⟩
  | ok sets =>
    simp only [hp] at hM hL
    obtain ⟨hh1, hh2⟩ := Table.header_eq n (s := { Stream.init with out := greeting E.version }) rfl
    obtain ⟨h1, h2, h3, h4⟩ := loops_outcome E n c.writeDiff (Bench.provide w rt block reps c.actions) sets (greeting E.version ++ headerText)
      ⟨Table.header n { Stream.init with out := greeting E.version }, ⟨[], fun _ => none⟩⟩ ⟨hh2, by simp only [hh1, linesFrom, List.append_nil]⟩ rfl
    generalize loops E n c.writeDiff (Bench.provide w rt block reps c.actions) sets _ = x at *
    dsimp only at h1 h2 h3 h4
    generalize Bench.run c.writeDiff (Bench.provide w rt block reps c.actions) sets _ = y at *
    obtain ⟨x1, x2⟩ := x
    obtain ⟨y1, y2⟩ := y
    dsimp only at h1 h2 h3 h4
    subst h2 h1 hM hL
    cases x2 with
    | ok u =>
      obtain ⟨b, ho⟩ := h3 rfl
      refine ⟨rfl, rfl, rfl, fun _ => ?_, (fun h => by cases h)⟩
      simp only [finally']
      rw [Table.put0 b.width, Table.put0 (by exact b.width), ho]
      simp only [List.append_assoc]
      rfl
    | error e =>
      obtain ⟨b, start, ht, hs⟩ := h4 e rfl
      cases e with
      | throw m =>
        refine ⟨rfl, rfl, rfl, (fun h => by cases h), fun _ => ⟨m, .inr ⟨start, hs.imp (fun h => ⟨h.1, by simp only [h.2]⟩) id, ?_⟩⟩⟩
        simp only [finally']
        rw [put4 b.width]
        simp only [ht, List.append_assoc]
        rfl
      | ub => exact ⟨rfl, rfl, rfl, (fun h => by cases h), (fun h => by cases h)⟩
      | assertFail => exact ⟨rfl, rfl, rfl, (fun h => by cases h), (fun h => by cases h)⟩

/-- C130: the screen of a run with a valid configuration: greeting, heading, a line per pair of matrices and action as described in
C129 – number, name, time of this execution, norms of the difference, details – and the last sentence.
(Missing: other configurations, see the negative theorems of C129 and C83; `C130_text` says what is written for them.) -/
theorem C130_screen_partial [Semiring F] (E : Env) (asserts : Bool) (w : With) (rt : Routines ℝ F) (hrt : rt.Conforms) (block : Action ℝ) (reps : Nat) (hr : 0 < reps)
    (n : Int) (c : BenchMain.Config ℝ) (d : Disk ℝ) (la lb : List (Provider.Spec ℝ)) (h : BenchMain.Valid w rt c d la lb) :
    ∃ (d' : Disk ℝ) (T : List Bench.Row), main E asserts w rt block reps (.run n) c d = ⟨greeting E.version ++ headerText ++ linesFrom E n 0 T ++
        "\n BlasBooster successfully finished. Have a nice day.\n\n".toList, [], d', .ok 0⟩ ∧ T.length = la.length * c.actions.length ∧
      ∀ (i k : Nat) (A B : Provider.Spec ℝ) (first name : String), la[i]? = some A → lb[i]? = some B → c.actions[0]? = some first → c.actions[k]? = some name →
        ∃ row, T[i * c.actions.length + k]? = some row ∧
          row.Shows i name A.rows B.cols (BenchMain.result rt A B name) (BenchMain.result rt A B first) := by
  obtain ⟨d', T, e, h1, h2, -⟩ := BenchMain.C129_table_partial asserts w rt hrt block reps hr c d la lb h
  obtain ⟨t1, t2, t3, t4, -⟩ := C130_text E asserts w rt block reps n c d
  rw [e] at t2 t3 t4
  refine ⟨d', T, ?_, h1, h2⟩
  have := t4 rfl
  generalize main E asserts w rt block reps (.run n) c d = L at *
  obtain ⟨a1, a2, a3, a4⟩ := L
  simp only at t1 t2 t3 this
  subst t1 t2 t3 this
  rfl

/-- C130: a request for help and rejected arguments: the usage text goes to the standard error, the settings are not read and no file changes; the
exit status is 0 for help and 1 for rejected arguments. -/
theorem C130_no_run [Zero F] [One F] (E : Env) (asserts : Bool) (w : With) (rt : Routines ℝ F) (block : Action ℝ) (reps : Nat) (m : List Char)
    (c : BenchMain.Config ℝ) (d : Disk ℝ) :
    main E asserts w rt block reps .help c d = ⟨greeting E.version, E.usage ++ ['\n'], d, .ok 0⟩ ∧
    main E asserts w rt block reps (.wrong m) c d = ⟨greeting E.version, E.usage ++ "\nError in command line: ".toList ++ m ++ ['\n'], d, .ok 1⟩ := by
  constructor <;> simp only [main, hello_eq] <;> rfl

/-- C130, negative: the name of an action that is not known leaves no trace: not on the screen, not in the files, not in the exit status. -/
theorem C130_unknown_action_leaves_no_trace [Semiring F] (E : Env) (asserts : Bool) (w : With) (rt : Routines ℝ F) (block : Action ℝ) (reps : Nat) (cmd : Command)
    (c : BenchMain.Config ℝ) (d : Disk ℝ) (pre post : List String) (name : String) (hc : c.actions = pre ++ name :: post) (h1 : name ∉ Bench.available w)
    (h2 : name ≠ "blasbooster_block") :
    main E asserts w rt block reps cmd c d = main E asserts w rt block reps cmd { c with actions := pre ++ post } d := by
  unfold main
  simp only [hc, Bench.C83_unknown_action_is_ignored w rt block reps pre post name h1 h2]

/-- C130, negative: whether the files of differences can be written leaves no trace on the screen and in the exit status. -/
theorem C130_unwritable_leaves_no_trace [Zero F] [One F] (E : Env) (asserts : Bool) (w : With) (rt : Routines ℝ F) (block : Action ℝ) (reps : Nat) (cmd : Command)
    (c : BenchMain.Config ℝ) (d d' : Disk ℝ) (h1 : d'.xml = d.xml) (h2 : d'.bin = d.bin) :
    let L := main E asserts w rt block reps cmd c d
    let L' := main E asserts w rt block reps cmd c d'
    L'.out = L.out ∧ L'.err = L.err ∧ L'.exit = L.exit := by
  have hr : BenchMain.resolve d' c.matrices = BenchMain.resolve d c.matrices := by
    have : ∀ x : BenchMain.Entry ℝ, x.leaf d' = x.leaf d := by
      intro x
      cases x with
      | file p => simp only [BenchMain.Entry.leaf, Files.ofFile, h1, h2]
      | _ => rfl
    unfold BenchMain.resolve
    rw [show BenchMain.Entry.leaf d' = BenchMain.Entry.leaf d from funext this]
  intro L L'
  simp only [L, L', main, hr]
  cases cmd with
  | wrong m => exact ⟨rfl, rfl, rfl⟩
  | help => exact ⟨rfl, rfl, rfl⟩
  | run n =>
    dsimp only
    split
    · exact ⟨rfl, rfl, rfl⟩
    · exact ⟨rfl, rfl, rfl⟩

theorem provide_append [Semiring F] (w : With) (rt : Routines ℝ F) (block : Action ℝ) (reps : Nat) (xs ys : List String) :
    Bench.provide w rt block reps (xs ++ ys) = Bench.provide w rt block reps xs ++ Bench.provide w rt block reps ys := by
  induction xs with
  | nil => rfl
  | cons x xs ih =>
    simp only [List.cons_append, Bench.provide, ih]
    split <;> rfl


theorem repeated_error {x : Res (Dense ℝ)} {e : Fault} (h : x = .error e) {reps : Nat} (hr : 0 < reps) : Bench.repeated x reps = .error e := by
  subst h
  have key : ∀ n (D : Dense ℝ), loopN (n + 1) (fun _ _ => (.error e : Res (Dense ℝ))) D = .error e := by
    intro n
    induction n with
    | zero => intro D; rfl
    | succ n ih => intro D; rw [loopN, ih]; rfl
  obtain ⟨n, rfl⟩ : ∃ n, reps = n + 1 := ⟨reps - 1, by omega⟩
  exact key n _

theorem provider_lists {asserts : Bool} {c : BenchMain.Config ℝ} {d : Disk ℝ} {sets : String → Option (List (Provider.Spec ℝ))}
    (h : BenchMain.Describes d (BenchMain.inOrder c.matrices) sets) {n : String} {l : List (Provider.Spec ℝ)} (hn : sets n = some l) {S : Provider.Sets ℝ}
    (eS : Provider.provider asserts (BenchMain.resolve d c.matrices) = .ok S) :
    ∃ L, S n = some L ∧ List.Forall₂ Provider.Spec.Holds l L ∧ ∀ A ∈ L, A.ori = .col := by
  obtain ⟨S', eS', hS, -⟩ := Provider.C57_sets asserts (BenchMain.resolve d c.matrices) sets (BenchMain.configures h)
  rw [eS] at eS'; cases eS'
  rcases hS n with ⟨-, h⟩ | ⟨L, l', h1, h2, h3⟩
  · rw [hn] at h; cases h
  · rw [hn] at h2; cases h2; exact ⟨L, h1, h3, BenchMain.provider_col eS n L h1⟩

/-- The results are kept if a failing action is added behind; a failure ends the loop over the pairs. -/
theorem matrices_fails (wd : Bool) (a b : Action ℝ) (as bs : List (Action ℝ)) (A B : Dense ℝ) (la lb : List (Dense ℝ)) (o o' : Bench.Out) (e : Fault)
    (h : Bench.runOn wd (a :: as) [A] [B] o = (o', .ok ())) (hb : b.execute A B = .error e) (hl : la.length = lb.length) :
    Bench.runOn wd (a :: as ++ b :: bs) (A :: la) (B :: lb) o = (o', .error e) := by
  have h1 : Bench.matrixStep wd a as 0 A B o = (o', .ok ()) := by
    simp only [Bench.runOn, List.length_singleton, Nat.one_ne_zero, if_false, ne_eq, not_true_eq_false, Bench.matrices] at h
    generalize Bench.matrixStep wd a as 0 A B o = x at h ⊢
    obtain ⟨x1, x2⟩ := x
    cases x2 with
    | ok u => exact h
    | error e => simp at h
  have h2 : Bench.matrixStep wd a (as ++ b :: bs) 0 A B o = (o', .error e) := by
    unfold Bench.matrixStep at h1 ⊢
    cases hx : a.execute A B with
    | error e => rw [hx] at h1; simp at h1
    | ok refC =>
      rw [hx] at h1
      dsimp only at h1 ⊢
      rw [Bench.C83_failure_keeps_lines wd 0 A B refC as bs b e _ hb (by rw [h1]), h1]
  simp only [Bench.runOn, List.length_cons, Nat.add_eq_zero_iff, Nat.one_ne_zero, and_false, if_false, ne_eq, hl, not_true_eq_false,
    List.cons_append, Bench.matrices, h2]

/-- C130: an action that Blaze refuses (the arrays of the first pair are not aligned, or their numbers of rows are not multiples of the SIMD width) is
reported: its line is begun, the lines before it are right, the message follows, the exit status is 1; neither the actions behind nor the other pairs
are executed. -/
theorem C130_blaze_is_reported [Semiring F] (E : Env) (asserts : Bool) (w : With) (rt : Routines ℝ F) (hrt : rt.Conforms) (block : Action ℝ) (reps : Nat) (hr : 0 < reps)
    (n : Int) (c : BenchMain.Config ℝ) (names more : List String) (hc : c.actions = names ++ "blaze_dgemm" :: more) (d : Disk ℝ) (A B : Provider.Spec ℝ)
    (la lb : List (Provider.Spec ℝ)) (h : BenchMain.Valid w rt { c with actions := names } d (A :: la) (B :: lb)) (hbl : ¬ Ext.Accepts rt.place A.rows A.cols) :
    ∃ (d' : Disk ℝ) (T : List Bench.Row) (m : String), main E asserts w rt block reps (.run n) c d = ⟨greeting E.version ++ headerText ++ linesFrom E n 0 T ++
        lineStart 0 "blaze_dgemm" ++ E.words m ++ "\nProgram was aborted.\n".toList, [], d', .ok 1⟩ ∧ T.length = names.length ∧
      ∀ (k : Nat) (first name : String), names[0]? = some first → names[k]? = some name →
        ∃ row, T[k]? = some row ∧ row.Shows 0 name A.rows B.cols (BenchMain.result rt A B name) (BenchMain.result rt A B first) := by
  obtain ⟨⟨sets, hconf, hA, hB⟩, hlen, -, hin, hsm, ⟨hn0, hn⟩, hblz⟩ := h
  dsimp only at hconf hn0 hn hblz
  obtain ⟨S, eS, -, -⟩ := Provider.C57_sets asserts (BenchMain.resolve d c.matrices) sets (BenchMain.configures hconf)
  obtain ⟨LA, sA, fA, cA⟩ := provider_lists hconf hA eS
  obtain ⟨LB, sB, fB, cB⟩ := provider_lists hconf hB eS
  cases fA with
  | @cons _ A' _ LA hA1 fA =>
  cases fB with
  | @cons _ B' _ LB hB1 fB =>
  have hA2 : A'.Is A.rows A.cols A.elem := hA1
  obtain ⟨i1, i2⟩ := hin 0 A B rfl rfl
  obtain ⟨s1, s2, s3⟩ := hsm 0 A B rfl rfl
  have hB2 : B'.Is A.cols B.cols B.elem := by rw [i1]; exact hB1
  have hll : LA.length = LB.length := by rw [← fA.length_eq, ← fB.length_eq]; simpa using hlen
  obtain ⟨hm1, hm2⟩ := BenchMain.provide_names (rt := rt) block (reps := reps) hn
  have hpl : (Bench.provide w rt block reps names).length = names.length := by
    have := congrArg List.length hm1
    rwa [List.length_map] at this
  obtain ⟨mb, hmb⟩ : ∃ msg, (Bench.blaze rt.blazeD rt.place reps).execute A' B' = .error (.throw msg) := by
    obtain ⟨msg, e⟩ := Ext.C80_blaze_throws rt.blazeD rt.place A' B' (Dense.empty .col) A.rows A.cols B.cols A.elem B.elem hA2 hB2 hbl
    exact ⟨msg, repeated_error e hr⟩
  have hprov : Bench.provide w rt block reps c.actions = Bench.provide w rt block reps names ++ Bench.blaze rt.blazeD rt.place reps :: Bench.provide w rt block reps more := by
    rw [hc, provide_append]
    congr 1
    simp [Bench.provide, Bench.make]
  generalize hacts : Bench.provide w rt block reps names = acts at *
  cases acts with
  | nil => exact absurd (List.length_eq_zero_iff.1 hpl.symm) hn0
  | cons a as =>
    have hK : as.length + 1 = names.length := by simpa using hpl
    obtain ⟨first, hfirst⟩ : ∃ first, names[0]? = some first := ⟨_, List.getElem?_eq_getElem (by omega)⟩
    obtain ⟨T, fs, e, h1, h2, -⟩ := Bench.C83_table_partial c.writeDiff a as [A'] [B'] (fun _ => A.rows) (fun _ => B.cols)
      (fun _ k => BenchMain.result rt A B (names[k]?.getD "")) ⟨[], fun _ => none⟩ (by simp) rfl (by
        intro i k A1 B1 act hA' hB' hact
        obtain ⟨rfl, rfl⟩ : i = 0 ∧ A1 = A' := by cases i <;> simp_all
        cases hB'
        obtain ⟨name, n1, n2, n3⟩ := hm2 k act hact
        obtain ⟨act', h, e1, -, hc', hp⟩ := Bench.C82_actions_partial w rt hrt block reps hr name (hn name (List.mem_of_getElem? n1)) A1 B' A.rows A.cols B.cols
          A.elem B.elem hA2 hB2 (cA A1 (by simp)) (cB B' (by simp)) s1 s2 s3 i2 (fun hb => hblz ⟨name, List.mem_of_getElem? n1, hb⟩ 0 A rfl)
        rw [n2] at e1
        cases e1
        have : BenchMain.result rt A B name = h := by
          funext x y
          simp only [BenchMain.result, hp x y, Option.getD_some]
        rw [n1, Option.getD_some, this]
        exact hc')
    have hrun := matrices_fails c.writeDiff a _ as (Bench.provide w rt block reps more) A' B' LA LB _ _ _ e hmb hll
    have hM : BenchMain.main asserts w rt block reps c d = ⟨BenchMain.storeAll fs d (LA.length + 1), T, .ok 1⟩ := by
      simp only [BenchMain.main, eS, Bench.run, Provider.Sets.get, sA, sB, hprov, hrun, Provider.Sets.at', Option.getD_some, List.nil_append, BenchMain.status, List.length_cons]
    obtain ⟨t1, t2, t3, -, t5⟩ := C130_text E asserts w rt block reps n c d
    have hTl : T.length = names.length := by rw [h1]; simp [hK]
    rw [hM] at t2 t3 t5
    obtain ⟨m, t5⟩ := t5 rfl
    dsimp only at t2 t3 t5
    rw [hprov] at t5
    have hTne : T ≠ [] := by intro h; rw [h] at hTl; simp at hTl; omega
    rcases t5 with ⟨h, -⟩ | ⟨start, h | ⟨i, k, name, q1, q2, q3⟩, ht⟩
    · exact absurd h hTne
    · exact absurd h.2 hTne
    · obtain ⟨rfl, rfl⟩ : i = 0 ∧ k = names.length := by
        have hk := (List.getElem?_eq_some_iff.1 q1).1
        simp only [List.length_map, List.length_append, List.length_cons, hTl, hK] at q2 hk
        cases i with
        | zero => omega
        | succ i => rw [Nat.succ_mul] at q2; omega
      have hname : name = "blaze_dgemm" := by
        rw [List.map_append, List.getElem?_append_right (by simp [hK])] at q1
        simp [hK, Bench.blaze] at q1
        exact q1.symm
      subst hname q3
      refine ⟨BenchMain.storeAll fs d (LA.length + 1), T, m, ?_, hTl, fun k first name hf hk => ?_⟩
      · generalize main E asserts w rt block reps (.run n) c d = L at *
        obtain ⟨a1, a2, a3, a4⟩ := L
        simp only at t1 t2 t3 ht
        subst t1 t2 t3 ht
        rfl
      · have hk' : k < (a :: as).length := by have := (List.getElem?_eq_some_iff.1 hk).1; simpa [hK] using this
        obtain ⟨row, r1, r2⟩ := h2 0 k _ (by simp) (List.getElem?_eq_getElem hk')
        rw [Nat.zero_mul, Nat.zero_add] at r1
        refine ⟨row, r1, ?_⟩
        obtain ⟨nm, n1, -, n3⟩ := hm2 k _ (List.getElem?_eq_getElem hk')
        rw [hk] at n1
        cases n1
        rw [n3, hk, hf] at r2
        exact r2

/-- What a reader finds in the lines. -/
def fieldsFrom (E : Env) (d : Int) : Nat → List Bench.Row → List (List Char)
  | _, [] => []
  | n, r :: T => Table.lineFields E.fmt d r.matrix r.name.toList ⟨(E.clock n).1, r.max, r.two, (E.clock n).2⟩ ++ fieldsFrom E d (n + 1) T

theorem fields_linesFrom (E : Env) (d : Int) (n : Nat) (T : List Bench.Row) (more : List Char)
    (h : ∀ k r, T[k]? = some r → Table.FitsLine E.fmt d r.matrix r.name.toList ⟨(E.clock (n + k)).1, r.max, r.two, (E.clock (n + k)).2⟩) :
    Table.fields (linesFrom E d n T ++ more) = fieldsFrom E d n T ++ Table.fields more := by
  induction T generalizing n with
  | nil => rfl
  | cons r T ih =>
    have h0 := h 0 r rfl
    rw [Nat.add_zero] at h0
    obtain ⟨h1, h2, h3, h4, h5, h6⟩ := h0
    rw [linesFrom, List.append_assoc, C115_fields_partial E.fmt d r.matrix r.name.toList _ h1 h2 h3 h4 h5 h6, ih (n + 1) (fun k r' hr => ?_)]
    · simp only [fieldsFrom, Table.lineFields, List.cons_append, List.append_assoc]
    · rw [show n + 1 + k = n + (k + 1) by omega]
      exact h (k + 1) r' (by simpa using hr)

/-- C130: whoever splits the screen of a successful run at blanks and newlines finds the version, the heading, and for every execution in order the number
of the pair, the name, the time, the two norms and the details, provided the texts fit into their columns.
(Missing: texts that do not fit, see `C115_columns_merge`.) -/
theorem C130_fields_partial [Zero F] [One F] (E : Env) (asserts : Bool) (w : With) (rt : Routines ℝ F) (block : Action ℝ) (reps : Nat) (n : Int)
    (c : BenchMain.Config ℝ) (d : Disk ℝ) (hv : Table.Plain E.version) (he : (BenchMain.main asserts w rt block reps c d).exit = .ok 0)
    (h : ∀ k r, (BenchMain.main asserts w rt block reps c d).rows[k]? = some r →
      Table.FitsLine E.fmt n r.matrix r.name.toList ⟨(E.clock k).1, r.max, r.two, (E.clock k).2⟩) :
    Table.fields (main E asserts w rt block reps (.run n) c d).out =
      ["BlasBooster".toList, E.version, "Benchmark".toList] ++
      ["matrix".toList, "name".toList, "time/s".toList, "max-norm".toList, "2-norm".toList, "details".toList, List.replicate 120 '-'] ++
      fieldsFrom E n 0 (BenchMain.main asserts w rt block reps c d).rows ++
      ["BlasBooster".toList, "successfully".toList, "finished.".toList, "Have".toList, "a".toList, "nice".toList, "day.".toList] := by
  obtain ⟨-, -, -, ht, -⟩ := C130_text E asserts w rt block reps n c d
  rw [ht he]
  generalize (BenchMain.main asserts w rt block reps c d).rows = T at h
  rw [List.append_assoc, List.append_assoc]
  have g : ∀ r : List Char, Table.fields (greeting E.version ++ r) = "BlasBooster".toList :: E.version :: "Benchmark".toList :: Table.fields r := by
    intro r
    have e : greeting E.version ++ r = '\n' :: ("BlasBooster".toList ++ ' ' :: (E.version ++ ' ' :: ("Benchmark".toList ++ '\n' :: ('\n' :: r)))) := by
      unfold greeting
      have e1 : "\nBlasBooster ".toList = '\n' :: ("BlasBooster".toList ++ [' ']) := by decide +kernel
      have e2 : " Benchmark\n\n".toList = ' ' :: ("Benchmark".toList ++ ['\n', '\n']) := by decide +kernel
      rw [e1, e2]
      generalize "BlasBooster".toList = x
      generalize "Benchmark".toList = y
      simp only [List.append_assoc, List.cons_append, List.nil_append]
    have sk : ∀ t : List Char, Table.fields ('\n' :: t) = Table.fields t := fun t => by simp [Table.fields, Table.split]
    rw [e, sk, Table.fields_word (t := "BlasBooster".toList) ⟨by decide +kernel, by decide +kernel⟩ ' ' (.inl rfl), Table.fields_word hv ' ' (.inl rfl),
      Table.fields_word (t := "Benchmark".toList) ⟨by decide +kernel, by decide +kernel⟩ '\n' (.inr rfl), sk]
  rw [g]
  have pl : ∀ t : List Char, (t ≠ [] ∧ t.all (fun c => c != ' ' && c != '\n') = true) → Table.Plain t := by
    rintro t ⟨h1, h2⟩
    refine ⟨h1, fun c hc => ?_⟩
    have := List.all_eq_true.1 h2 c hc
    simpa using this
  have hd : ∀ r : List Char, Table.fields (headerText ++ r) =
      ["matrix".toList, "name".toList, "time/s".toList, "max-norm".toList, "2-norm".toList, "details".toList, List.replicate 120 '-'] ++ Table.fields r := by
    intro t
    have n0 : ∀ r : List Char, Table.fields ('\n' :: r) = Table.fields r := fun r => by simp [Table.fields, Table.split]
    simp only [headerText, List.append_assoc, List.cons_append]
    rw [n0, Table.fields_column (pl _ (by decide +kernel)) (by decide +kernel), Table.fields_column (pl _ (by decide +kernel)) (by decide +kernel),
      Table.fields_column (pl _ (by decide +kernel)) (by decide +kernel), Table.fields_column (pl _ (by decide +kernel)) (by decide +kernel),
      Table.fields_column (pl _ (by decide +kernel)) (by decide +kernel),
      show "details\n".toList = "details".toList ++ ['\n'] by decide +kernel, List.append_assoc, List.cons_append,
      Table.fields_word (pl _ (by decide +kernel)) '\n' (.inr rfl), List.nil_append,
      Table.fields_word (pl _ (by decide +kernel)) '\n' (.inr rfl)]
    rfl
  rw [hd, fields_linesFrom E n 0 T _ (fun k r hr => by rw [Nat.zero_add]; exact h k r hr)]
  have : Table.fields "\n BlasBooster successfully finished. Have a nice day.\n\n".toList =
    ["BlasBooster".toList, "successfully".toList, "finished.".toList, "Have".toList, "a".toList, "nice".toList, "day.".toList] := by decide +kernel
  rw [this]
  simp only [List.cons_append, List.nil_append]

/-- A run in which Blaze refuses a 3 × 3 matrix for SIMD width 4: one line, the beginning of the second, the message. -/
example (E : Env) : ∃ (d' : Disk ℝ) (T : List Bench.Row) (m : String),
    main E true ⟨true, false, false⟩ (Bench.refRoutines ⟨4, 4, 4, true, true, true⟩) (Bench.native 1) 3 (.run 3)
      ⟨["native_dense", "blaze_dgemm", "openblas_dgemm"], [("A", [.band [3] [2] 5]), ("B", [.equalTo "A"])], false⟩ ⟨fun _ => none, fun _ => none, fun _ => true⟩ =
    ⟨greeting E.version ++ headerText ++ linesFrom E 3 0 T ++ lineStart 0 "blaze_dgemm" ++ E.words m ++ "\nProgram was aborted.\n".toList, [], d', .ok 1⟩ ∧
    T.length = 1 := by
  let s : Provider.Spec ℝ := ⟨3, 3, fun i j => if ((i : Int) - j).natAbs < 2 then 5 else 0⟩
  obtain ⟨d', T, m, e, h, -⟩ := C130_blaze_is_reported E true ⟨true, false, false⟩ (Bench.refRoutines ⟨4, 4, 4, true, true, true⟩) (Bench.refRoutines_conforms _) (Bench.native 1) 3
    (by norm_num) 3 ⟨["native_dense", "blaze_dgemm", "openblas_dgemm"], [("A", [.band [3] [2] 5]), ("B", [.equalTo "A"])], false⟩ ["native_dense"] ["openblas_dgemm"] rfl
    ⟨fun _ => none, fun _ => none, fun _ => true⟩ s s [] [] (by
      refine ⟨⟨_, .snoc (.snoc .nil (.bands [3] [2] 5 (by simp) (by simp))) (.copy "A" [s] (by decide) rfl), rfl, rfl⟩, rfl, by simp, ?_, ?_, ⟨by simp, ?_⟩, ?_⟩
      · intro i A B hA hB
        match i, hA, hB with
        | 0, hA, hB => cases hA; cases hB; exact ⟨rfl, by decide⟩
        | i + 1, hA, _ => simp at hA
      · intro i A B hA hB
        match i, hA, hB with
        | 0, hA, hB => cases hA; cases hB; exact ⟨by decide, by decide, by decide⟩
        | i + 1, hA, _ => simp at hA
      · intro n hn
        simp only [List.mem_cons, List.not_mem_nil, or_false] at hn
        subst hn
        simp [Bench.available]
      · rintro ⟨n, hn, hb⟩
        simp only [List.mem_cons, List.not_mem_nil, or_false] at hn
        subst hn
        simp at hb) (by
      rintro ⟨-, -, -, h, -⟩
      revert h
      decide)
  exact ⟨d', T, m, e, h⟩

/-- The hypotheses of `C130_fields_partial` are met by a run with one pair and one action, if numbers are written with one digit. -/
example : let E : Env := ⟨"1".toList, [], fun _ _ _ => ['0'], fun _ => (0, []), fun m => m.toList⟩
    Table.fields (main E true ⟨true, false, false⟩ (Bench.refRoutines ⟨4, 4, 4, true, true, true⟩) (Bench.native 1) 3 (.run 3)
      ⟨["native_dense"], [("A", [.band [3] [2] 5]), ("B", [.equalTo "A"])], false⟩ ⟨fun _ => none, fun _ => none, fun _ => true⟩).out =
      ["BlasBooster".toList, "1".toList, "Benchmark".toList, "matrix".toList, "name".toList, "time/s".toList, "max-norm".toList, "2-norm".toList, "details".toList,
       List.replicate 120 '-', "0".toList, "native_dense".toList, "0".toList, "0".toList, "0".toList,
       "BlasBooster".toList, "successfully".toList, "finished.".toList, "Have".toList, "a".toList, "nice".toList, "day.".toList] := by
  intro E
  let s : Provider.Spec ℝ := ⟨3, 3, fun i j => if ((i : Int) - j).natAbs < 2 then 5 else 0⟩
  obtain ⟨d', T, e, h1, h2, -⟩ := BenchMain.C129_table_partial true ⟨true, false, false⟩ (Bench.refRoutines ⟨4, 4, 4, true, true, true⟩) (Bench.refRoutines_conforms _) (Bench.native 1) 3
    (by norm_num) ⟨["native_dense"], [("A", [.band [3] [2] 5]), ("B", [.equalTo "A"])], false⟩ ⟨fun _ => none, fun _ => none, fun _ => true⟩ [s] [s] (by
      refine ⟨⟨_, .snoc (.snoc .nil (.bands [3] [2] 5 (by simp) (by simp))) (.copy "A" [s] (by decide) rfl), rfl, rfl⟩, rfl, by simp, ?_, ?_, ⟨by simp, ?_⟩, ?_⟩
      · intro i A B hA hB
        match i, hA, hB with
        | 0, hA, hB => cases hA; cases hB; exact ⟨rfl, by decide⟩
        | i + 1, hA, _ => simp at hA
      · intro i A B hA hB
        match i, hA, hB with
        | 0, hA, hB => cases hA; cases hB; exact ⟨by decide, by decide, by decide⟩
        | i + 1, hA, _ => simp at hA
      · intro n hn
        simp only [List.mem_cons, List.not_mem_nil, or_false] at hn
        subst hn
        simp [Bench.available]
      · rintro ⟨n, hn, hb⟩
        simp only [List.mem_cons, List.not_mem_nil, or_false] at hn
        subst hn
        simp at hb)
  obtain ⟨row, r1, r2⟩ := h2 0 0 s s "native_dense" "native_dense" rfl rfl rfl rfl
  obtain ⟨rfl⟩ : T = [row] := by
    match T, h1, r1 with
    | [x], _, r1 => cases r1; rfl
  obtain ⟨a1, a2, a3, a4⟩ := row
  obtain ⟨b1, b2, -, -⟩ := r2
  dsimp only at b1 b2
  subst b1 b2
  rw [C130_fields_partial E true _ _ _ 3 3 _ _ ⟨by decide, by decide⟩ (by rw [e]) (by
    intro k r hr
    rw [e] at hr
    match k, hr with
    | 0, hr =>
      cases hr
      have z : Table.Plain ['0'] ∧ ['0'].length < 15 := ⟨⟨by decide, by decide⟩, by decide⟩
      have hn : Table.Plain "native_dense".toList ∧ "native_dense".toList.length < 30 := ⟨⟨by decide +kernel, by decide +kernel⟩, by decide +kernel⟩
      have hi : (digits 0).length < 10 := by decide
      exact ⟨hi, hn, z, z, z, fun x hx => by cases hx⟩
    | k + 1, hr => simp at hr), e]
  have z2 : ['0'] = "0".toList := by decide +kernel
  rw [← z2]
  simp only [fieldsFrom, Table.lineFields, E]
  rfl

end BB.BenchConsole
