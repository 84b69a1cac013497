import Verif.Model.Table
import Verif.Props.Tracker

/-!
# C115: the text of the benchmark table
-/

namespace BB

open Table

variable {R : Type}

namespace Table

/-! ### Specification -/

/-- A column: the text and blanks up to the width. -/
def column (w : Nat) (t : List Char) : List Char := t ++ List.replicate (w - t.length) ' '

/-- The heading. -/
def headerText : List Char :=
  '\n' :: column 10 "matrix".toList ++ column 30 "name".toList ++ column 15 "time/s".toList ++ column 15 "max-norm".toList ++
    column 15 "2-norm".toList ++ "details\n".toList ++ List.replicate 120 '-' ++ ['\n']

/-- The parts of the time. -/
def detailsText (F : Fmt R) (d : Int) (ds : List (List Char × R)) : List Char :=
  ds.flatMap fun x => x.1 ++ ": ".toList ++ F .fixed d x.2 ++ " s ".toList

/-- One line: number of the matrices, name of the action, time, norms, parts of the time.  All numbers are written with `d`
digits, the time in fixed, the norms in scientific notation. -/
def lineText (F : Fmt R) (d : Int) (i : Nat) (name : List Char) (r : Result R) : List Char :=
  column 10 (digits i) ++ column 30 name ++ column 15 (F .fixed d r.time) ++ column 15 (F .scientific d r.max) ++
    column 15 (F .scientific d r.two) ++ detailsText F d r.details ++ ['\n']

/-- The lines of one pair of matrices; the norms of the first action, the reference, are 0. -/
def linesText [Zero R] (F : Fmt R) (d : Int) (i : Nat) : List (List Char × Result R) → List Char
  | [] => []
  | (name, r) :: as => lineText F d i name { r with max := 0, two := 0 } ++ as.flatMap fun a => lineText F d i a.1 a.2

/-- The lines of all pairs, numbered from `i`. -/
def tableText [Zero R] (F : Fmt R) (d : Int) : Nat → List (List (List Char × Result R)) → List Char
  | _, [] => []
  | i, as :: ms => linesText F d i as ++ tableText F d (i + 1) ms

/-- All actions were successful. -/
def succeeded (as : List (List Char × Result R)) : List (List Char × Option (Result R)) := as.map fun a => (a.1, some a.2)

/-- Splitting a text at blanks and newlines: `word` is the word that was begun. -/
def split : List Char → List Char → List (List Char)
  | word, [] => if word = [] then [] else [word]
  | word, c :: r =>
    if c = ' ' ∨ c = '\n' then (if word = [] then split [] r else word :: split [] r)
    else split (word ++ [c]) r

@[inherit_doc split]
def fields (t : List Char) : List (List Char) := split [] t

/-- A text that is one field. -/
def Plain (t : List Char) : Prop := t ≠ [] ∧ ∀ c ∈ t, c ≠ ' ' ∧ c ≠ '\n'

/-! ### Lemmas -/

/-- State of the stream between the lines. -/
structure Between (d : Int) (s : Stream) : Prop where
  left : s.left = true
  field : s.field = .scientific
  width : s.width = 0
  acc : s.acc = d

theorem put0 {s : Stream} (h : s.width = 0) (t : List Char) : s.put t = { s with out := s.out ++ t } := by
  cases s
  simp only at h
  subst h
  simp [Stream.put]

theorem details_eq (F : Fmt R) {d : Int} (ds : List (List Char × R)) {s : Stream} (h : Between d s) (hp : s.prec = d) :
    Stream.details F ds s = { s with out := s.out ++ detailsText F d ds } := by
  induction ds generalizing s with
  | nil => simp [Stream.details, detailsText]
  | cons x ds ih =>
    obtain ⟨n, t⟩ := x
    obtain ⟨out, left, field, prec, width, acc⟩ := s
    obtain ⟨h1, h2, h3, h4⟩ := h
    simp only at h1 h2 h3 h4 hp
    subst h1 h2 h3 h4 hp
    rw [Stream.details, ih (s := _) ?_ ?_]
    · simp [Stream.put, Stream.duration, Stream.num, detailsText, List.append_assoc]
    · simp [Stream.put, Stream.duration, Stream.num]
      exact ⟨rfl, rfl, rfl, rfl⟩
    · simp [Stream.put, Stream.duration, Stream.num]

theorem begin_eq (i : Nat) (name : List Char) {d : Int} {s : Stream} (h : Between d s) :
    begin i name s = { s with out := s.out ++ (column 10 (digits i) ++ column 30 name) } := by
  obtain ⟨out, left, field, prec, width, acc⟩ := s
  obtain ⟨h1, h2, h3, h4⟩ := h
  simp only at h1 h2 h3 h4
  subst h1 h2 h3 h4
  simp [begin, Stream.put, Stream.setw, Stream.setLeft, column, List.append_assoc]

theorem finish_eq (F : Fmt R) (i : Nat) (name : List Char) (r : Result R) {d : Int} {s : Stream} (h : Between d s) :
    finish F d r (begin i name s) = { s with out := s.out ++ lineText F d i name r, prec := d } := by
  rw [begin_eq i name h]
  obtain ⟨out, left, field, prec, width, acc⟩ := s
  obtain ⟨h1, h2, h3, h4⟩ := h
  simp only at h1 h2 h3 h4
  subst h1 h2 h3 h4
  simp only [finish, Stream.accuracy, Stream.duration, Stream.num, Stream.setw, Stream.put]
  rw [details_eq F (d := acc) r.details ⟨rfl, rfl, rfl, rfl⟩ rfl]
  simp [lineText, column, List.append_assoc]

theorem finishFirst_eq [Zero R] (F : Fmt R) (i : Nat) (name : List Char) (r : Result R) {d : Int} {s : Stream} (h : Between d s) :
    finishFirst F r (begin i name s) = { s with out := s.out ++ lineText F d i name { r with max := 0, two := 0 }, prec := d } := by
  rw [begin_eq i name h]
  obtain ⟨out, left, field, prec, width, acc⟩ := s
  obtain ⟨h1, h2, h3, h4⟩ := h
  simp only at h1 h2 h3 h4
  subst h1 h2 h3 h4
  simp only [finishFirst, Stream.duration, Stream.num, Stream.setw, Stream.put]
  rw [details_eq F (d := acc) r.details ⟨rfl, rfl, rfl, rfl⟩ rfl]
  simp [lineText, column, List.append_assoc]

theorem others_eq (F : Fmt R) (i : Nat) (as : List (List Char × Result R)) (rest : List (List Char × Option (Result R))) {d : Int} {s : Stream}
    (h : Between d s) : ∃ s', Between d s' ∧ s'.out = s.out ++ as.flatMap (fun a => lineText F d i a.1 a.2) ∧
      others F d i (succeeded as ++ rest) s = others F d i rest s' := by
  induction as generalizing s with
  | nil => exact ⟨s, h, by simp, rfl⟩
  | cons a as ih =>
    obtain ⟨name, r⟩ := a
    obtain ⟨s', h', e1, e2⟩ := ih (s := finish F d r (begin i name s)) (by rw [finish_eq F i name r h]; exact ⟨h.left, h.field, h.width, h.acc⟩)
    refine ⟨s', h', ?_, ?_⟩
    · rw [e1, finish_eq F i name r h]
      simp [List.append_assoc]
    · rw [← e2]; rfl

theorem actions_eq [Zero R] (F : Fmt R) (i : Nat) (as : List (List Char × Result R)) {d : Int} {s : Stream} (h : Between d s) :
    ∃ s', Between d s' ∧ s'.out = s.out ++ linesText F d i as ∧ actions F d i (succeeded as) s = (s', true) := by
  cases as with
  | nil => exact ⟨s, h, by simp [linesText], rfl⟩
  | cons a as =>
    obtain ⟨name, r⟩ := a
    obtain ⟨s', h', e1, e2⟩ := others_eq F i as [] (s := finishFirst F r (begin i name s)) (d := d)
      (by rw [finishFirst_eq F i name r h]; exact ⟨h.left, h.field, h.width, h.acc⟩)
    refine ⟨s', h', ?_, ?_⟩
    · rw [e1, finishFirst_eq F i name r h]
      simp [linesText, List.append_assoc]
    · rw [List.append_nil] at e2
      exact e2

theorem matrices_eq [Zero R] (F : Fmt R) (i : Nat) (ms : List (List (List Char × Result R))) (rest : List (List (List Char × Option (Result R))))
    {d : Int} {s : Stream} (h : Between d s) : ∃ s', Between d s' ∧ s'.out = s.out ++ tableText F d i ms ∧
      matrices F d i (ms.map succeeded ++ rest) s = matrices F d (i + ms.length) rest s' := by
  induction ms generalizing s i with
  | nil => exact ⟨s, h, by simp [tableText], rfl⟩
  | cons as ms ih =>
    obtain ⟨s1, h1, e1, e2⟩ := actions_eq F i as h
    obtain ⟨s', h', e3, e4⟩ := ih (i + 1) h1
    refine ⟨s', h', by rw [e3, e1]; simp [tableText, List.append_assoc], ?_⟩
    simp only [List.map_cons, List.cons_append, matrices, e2]
    rw [e4]
    congr 1
    simp only [List.length_cons]
    omega

theorem header_eq (d : Int) {s : Stream} (h : s.width = 0) : (header d s).out = s.out ++ headerText ∧ Between d (header d s) := by
  obtain ⟨out, left, field, prec, width, acc⟩ := s
  simp only at h
  subst h
  refine ⟨?_, ⟨rfl, rfl, rfl, rfl⟩⟩
  have e : ∀ t : List Char, (if left = true then t ++ List.replicate (0 - t.length) ' ' else List.replicate (0 - t.length) ' ' ++ t) = t := by
    intro t
    cases left <;> simp
  simp only [header, headerText, Stream.put, Stream.setw, Stream.setLeft, Stream.accuracy, column, if_true, e, Nat.zero_sub, List.replicate_zero,
    List.append_nil, List.append_assoc, List.cons_append]
  cases left <;> rfl

end Table

/-- C115: the text of the whole run when every action succeeds, for all numbers of matrices and actions, all names, results
and options: the heading, then one line per pair of matrices and action, in order, then the final message. -/
theorem C115_text [Zero R] (F : Fmt R) (d : Int) (what : List Char) (ms : List (List (List Char × Result R))) (s : Stream) (hs : s.width = 0) :
    (program F d what (ms.map succeeded) s).out =
      s.out ++ headerText ++ tableText F d 0 ms ++ "\n BlasBooster successfully finished. Have a nice day.\n\n".toList := by
  obtain ⟨h1, hb⟩ := header_eq d hs
  obtain ⟨s', h', e1, e2⟩ := matrices_eq F 0 ms [] hb
  rw [List.append_nil] at e2
  simp only [program, e2, matrices]
  rw [put0 h'.width, put0 (by exact h'.width)]
  simp only [e1, h1, List.append_assoc]
  rfl

/-- C115: when an action throws, the lines before it are complete, and the message follows on the line of that action, after
its number and name; nothing is written for the actions and matrices after it. -/
theorem C115_failure_text [Zero R] (F : Fmt R) (d : Int) (what name : List Char) (ms : List (List (List Char × Result R)))
    (pre : List (List Char × Result R)) (post : List (List Char × Option (Result R))) (more : List (List (List Char × Option (Result R))))
    (s : Stream) (hs : s.width = 0) :
    (program F d what (ms.map succeeded ++ (succeeded pre ++ (name, none) :: post) :: more) s).out =
      s.out ++ headerText ++ tableText F d 0 ms ++ linesText F d ms.length pre ++ column 10 (digits ms.length) ++ column 30 name ++
        "Standard exception: ".toList ++ what ++ "\nProgram was aborted.\n".toList := by
  obtain ⟨h1, hb⟩ := header_eq d hs
  obtain ⟨s', h', e1, e2⟩ := matrices_eq F 0 ms ((succeeded pre ++ (name, none) :: post) :: more) hb
  rw [Nat.zero_add] at e2
  have key : ∃ s2, Between d s2 ∧ s2.out = s'.out ++ linesText F d ms.length pre ∧
      actions F d ms.length (succeeded pre ++ (name, none) :: post) s' = (begin ms.length name s2, false) := by
    cases pre with
    | nil => exact ⟨s', h', by simp [linesText], rfl⟩
    | cons a as =>
      obtain ⟨n, r⟩ := a
      obtain ⟨s2, h2, e3, e4⟩ := others_eq F ms.length as ((name, none) :: post) (s := finishFirst F r (begin ms.length n s')) (d := d)
        (by rw [finishFirst_eq F ms.length n r h']; exact ⟨h'.left, h'.field, h'.width, h'.acc⟩)
      refine ⟨s2, h2, ?_, ?_⟩
      · rw [e3, finishFirst_eq F ms.length n r h']
        simp [linesText, List.append_assoc]
      · exact e4
  obtain ⟨s2, h2, e3, e4⟩ := key
  simp only [program, e2, matrices, e4]
  have fin : ∀ (a b c d e : List Char) (s : Stream), s.width = 0 → (((((s.put a).put b).put c).put d).put e).out =
      s.out ++ (a ++ (b ++ (c ++ (d ++ e)))) := by
    rintro a b c d e ⟨out, left, field, prec, width, acc⟩ h
    simp only at h
    subst h
    cases left <;> simp [Stream.put, List.append_assoc]
  rw [fin _ _ _ _ _ _ (by rw [begin_eq _ _ h2]; exact h2.width), begin_eq _ _ h2]
  simp only [e3, e1, h1, List.append_assoc]
  rfl

namespace Table

theorem fields_blanks (n : Nat) (r : List Char) : fields (List.replicate n ' ' ++ r) = fields r := by
  induction n with
  | zero => rfl
  | succ n ih => simpa [List.replicate_succ, fields, split] using ih

theorem split_word {t : List Char} (h : ∀ c ∈ t, c ≠ ' ' ∧ c ≠ '\n') (w r : List Char) : split w (t ++ r) = split (w ++ t) r := by
  induction t generalizing w with
  | nil => simp
  | cons c t ih =>
    obtain ⟨h1, h2⟩ := h c (by simp)
    rw [List.cons_append, split, if_neg (by simp [h1, h2]), ih (fun x hx => h x (by simp [hx]))]
    simp

theorem fields_word {t : List Char} (h : Plain t) (b : Char) (hb : b = ' ' ∨ b = '\n') (r : List Char) :
    fields (t ++ b :: r) = t :: fields r := by
  rw [fields, split_word h.2, List.nil_append, split, if_pos hb, if_neg h.1]
  rfl

theorem fields_column {t : List Char} (h : Plain t) {w : Nat} (hw : t.length < w) (r : List Char) : fields (column w t ++ r) = t :: fields r := by
  obtain ⟨k, hk⟩ : ∃ k, w - t.length = k + 1 := ⟨w - t.length - 1, by omega⟩
  rw [column, hk, List.replicate_succ, List.append_assoc, List.cons_append, fields_word h ' ' (.inl rfl), fields_blanks]

theorem plain_append {a b : List Char} (ha : Plain a) (hb : ∀ c ∈ b, c ≠ ' ' ∧ c ≠ '\n') : Plain (a ++ b) := by
  refine ⟨by simp [ha.1], ?_⟩
  intro c hc
  rcases List.mem_append.1 hc with h | h
  · exact ha.2 c h
  · exact hb c h

theorem fields_details (F : Fmt R) (d : Int) (ds : List (List Char × R)) (h : ∀ x ∈ ds, Plain x.1 ∧ Plain (F .fixed d x.2)) (r : List Char) :
    fields (detailsText F d ds ++ r) = ds.flatMap (fun x => [x.1 ++ [':'], F .fixed d x.2, ['s']]) ++ fields r := by
  induction ds with
  | nil => rfl
  | cons x ds ih =>
    obtain ⟨h1, h2⟩ := h x (by simp)
    have e : detailsText F d (x :: ds) ++ r =
        (x.1 ++ [':']) ++ ' ' :: (F .fixed d x.2 ++ ' ' :: (['s'] ++ ' ' :: (detailsText F d ds ++ r))) := by
      simp [detailsText]
    rw [e, fields_word (plain_append h1 (by simp)) ' ' (.inl rfl), fields_word h2 ' ' (.inl rfl),
      fields_word (t := ['s']) ⟨by simp, by simp⟩ ' ' (.inl rfl), ih (fun y hy => h y (by simp [hy]))]
    simp

theorem digits_plain (n : Nat) : Plain (digits n) := by
  refine ⟨Nat.toDigits_ne_nil, ?_⟩
  intro c hc
  have h := Nat.isDigit_of_mem_toDigits (by omega) (by omega) hc
  constructor <;> rintro rfl <;> revert h <;> decide

end Table

/-- C115, part that holds: the fields of a line can be read off by splitting it at blanks, provided every text is shorter than
its column.  (Missing: longer texts, see `C115_columns_merge`.) -/
theorem C115_fields_partial (F : Fmt R) (d : Int) (i : Nat) (name : List Char) (r : Result R) (hi : (digits i).length < 10)
    (hn : Plain name ∧ name.length < 30) (ht : Plain (F .fixed d r.time) ∧ (F .fixed d r.time).length < 15)
    (hm : Plain (F .scientific d r.max) ∧ (F .scientific d r.max).length < 15)
    (h2 : Plain (F .scientific d r.two) ∧ (F .scientific d r.two).length < 15)
    (hd : ∀ x ∈ r.details, Plain x.1 ∧ Plain (F .fixed d x.2)) (more : List Char) :
    fields (lineText F d i name r ++ more) = digits i :: name :: F .fixed d r.time :: F .scientific d r.max :: F .scientific d r.two ::
      r.details.flatMap (fun x => [x.1 ++ [':'], F .fixed d x.2, ['s']]) ++ fields more := by
  simp only [lineText, List.append_assoc]
  rw [fields_column (digits_plain i) hi, fields_column hn.1 hn.2, fields_column ht.1 ht.2, fields_column hm.1 hm.2, fields_column h2.1 h2.2,
    fields_details F d _ hd]
  simp [fields, split]

namespace Table

/-- Every text of a line is a single word shorter than its column. -/
structure FitsLine (F : Fmt R) (d : Int) (i : Nat) (name : List Char) (r : Result R) : Prop where
  number : (digits i).length < 10
  name : Plain name ∧ name.length < 30
  time : Plain (F .fixed d r.time) ∧ (F .fixed d r.time).length < 15
  max : Plain (F .scientific d r.max) ∧ (F .scientific d r.max).length < 15
  two : Plain (F .scientific d r.two) ∧ (F .scientific d r.two).length < 15
  details : ∀ x ∈ r.details, Plain x.1 ∧ Plain (F .fixed d x.2)

/-- What a reader of the table expects in a line. -/
def lineFields (F : Fmt R) (d : Int) (i : Nat) (name : List Char) (r : Result R) : List (List Char) :=
  digits i :: name :: F .fixed d r.time :: F .scientific d r.max :: F .scientific d r.two ::
    r.details.flatMap (fun x => [x.1 ++ [':'], F .fixed d x.2, ['s']])

/-- The lines of a run: pair of matrices, action, result; the norms of the first action of a pair are 0. -/
def runLines [Zero R] : Nat → List (List (List Char × Result R)) → List (Nat × List Char × Result R)
  | _, [] => []
  | i, [] :: ms => runLines (i + 1) ms
  | i, ((name, r) :: as) :: ms => (i, name, { r with max := 0, two := 0 }) :: (as.map fun a => (i, a.1, a.2)) ++ runLines (i + 1) ms

theorem tableText_eq [Zero R] (F : Fmt R) (d : Int) (ms : List (List (List Char × Result R))) (i : Nat) :
    tableText F d i ms = (runLines i ms).flatMap fun l => lineText F d l.1 l.2.1 l.2.2 := by
  induction ms generalizing i with
  | nil => rfl
  | cons as ms ih =>
    cases as with
    | nil => simp [tableText, linesText, runLines, ih]
    | cons a as => simp [tableText, linesText, runLines, ih, List.flatMap_map]

end Table

/-- C115: reading a whole successful run: the words of what the program writes to a fresh `std::cout` are those of the heading,
then line by line the words of the results in the order of execution, then the farewell – provided every text is shorter than its
column.  (Missing: longer texts, see `C115_columns_merge`.) -/
theorem C115_run_fields_partial [Zero R] (F : Fmt R) (d : Int) (what : List Char) (ms : List (List (List Char × Result R)))
    (h : ∀ l ∈ runLines 0 ms, FitsLine F d l.1 l.2.1 l.2.2) :
    fields (program F d what (ms.map succeeded) .init).out =
      ["matrix".toList, "name".toList, "time/s".toList, "max-norm".toList, "2-norm".toList, "details".toList, List.replicate 120 '-'] ++
      (runLines 0 ms).flatMap (fun l => lineFields F d l.1 l.2.1 l.2.2) ++
      ["BlasBooster".toList, "successfully".toList, "finished.".toList, "Have".toList, "a".toList, "nice".toList, "day.".toList] := by
  rw [C115_text F d what ms .init rfl, tableText_eq]
  have e0 : (Stream.init.out ++ headerText : List Char) = headerText := rfl
  rw [e0]
  generalize runLines 0 ms = ls at h ⊢
  have body : ∀ t : List Char, fields (ls.flatMap (fun l => lineText F d l.1 l.2.1 l.2.2) ++ t) =
      ls.flatMap (fun l => lineFields F d l.1 l.2.1 l.2.2) ++ fields t := by
    intro t
    induction ls with
    | nil => rfl
    | cons l ls ih =>
      have hl := h l (by simp)
      rw [List.flatMap_cons, List.flatMap_cons, List.append_assoc,
        C115_fields_partial F d l.1 l.2.1 l.2.2 hl.number hl.name hl.time hl.max hl.two hl.details,
        ih fun x hx => h x (by simp [hx])]
      simp [lineFields]
  have pl : ∀ t : List Char, (t ≠ [] ∧ t.all (fun c => c != ' ' && c != '\n') = true) → Plain t := by
    rintro t ⟨h1, h2⟩
    refine ⟨h1, fun c hc => ?_⟩
    have := List.all_eq_true.1 h2 c hc
    simpa using this
  have hd : ∀ t : List Char, fields (headerText ++ t) =
      ["matrix".toList, "name".toList, "time/s".toList, "max-norm".toList, "2-norm".toList, "details".toList, List.replicate 120 '-'] ++ fields t := by
    intro t
    have n0 : ∀ r : List Char, fields ('\n' :: r) = fields r := fun r => by simp [fields, split]
    simp only [headerText, List.append_assoc, List.cons_append]
    rw [n0, fields_column (pl _ (by decide +kernel)) (by decide +kernel), fields_column (pl _ (by decide +kernel)) (by decide +kernel),
      fields_column (pl _ (by decide +kernel)) (by decide +kernel), fields_column (pl _ (by decide +kernel)) (by decide +kernel),
      fields_column (pl _ (by decide +kernel)) (by decide +kernel),
      show "details\n".toList = "details".toList ++ ['\n'] by decide +kernel, List.append_assoc, List.cons_append,
      fields_word (pl _ (by decide +kernel)) '\n' (.inr rfl), List.nil_append,
      fields_word (pl _ (by decide +kernel)) '\n' (.inr rfl)]
    rfl
  have tl : fields "\n BlasBooster successfully finished. Have a nice day.\n\n".toList =
      ["BlasBooster".toList, "successfully".toList, "finished.".toList, "Have".toList, "a".toList, "nice".toList, "day.".toList] := by decide +kernel
  rw [List.append_assoc, hd, body, tl, List.append_assoc]

/-- C115: the names of all actions the program offers are single words shorter than their column. -/
theorem C115_action_names {R F : Type} [Semiring R] [Semiring F] (w : Bench.With) (rt : Bench.Routines R F) (block a : Bench.Action R) (reps : Nat)
    (hb : block.name = "blasbooster_block") (name : String) (h : Bench.make w rt block reps name = some a) :
    Plain a.name.toList ∧ a.name.toList.length < 30 := by
  have plain : ∀ t : List Char, (t ≠ [] ∧ t.all (fun c => c != ' ' && c != '\n') = true) → Plain t := by
    rintro t ⟨h1, h2⟩
    refine ⟨h1, fun c hc => ?_⟩
    have := List.all_eq_true.1 h2 c hc
    simpa using this
  have key : a.name ∈ ["openblas_dgemm", "openblas_sgemm", "intelmkl_dgemm", "intelmkl_sgemm", "eigen_dgemm", "eigen_sgemm", "blaze_dgemm",
      "blaze_sgemm", "blaze_sdgemm", "blaze_dsgemm", "blasbooster_block", "native_dense"] := by
    have step : ∀ (c : Bool) (x : Bench.Action R) (e : Option (Bench.Action R)) (P : Prop), (if c = true then some x else e) = some a →
        (c = true → a = x → P) → (e = some a → P) → P := by
      intro c x e P h h1 h2
      cases c
      · exact h2 h
      · exact h1 rfl (Option.some.inj h).symm
    have nm : ∀ (c : Bool) (t : String), (c && name == t) = true → name = t := by
      intro c t h
      rw [Bool.and_eq_true] at h
      exact beq_iff_eq.1 h.2
    unfold Bench.make at h
    refine step _ _ _ _ h (fun hc ha => ?_) (fun h => ?_)
    · rw [ha, nm _ _ hc]; exact List.mem_of_elem_eq_true rfl
    refine step _ _ _ _ h (fun hc ha => ?_) (fun h => ?_)
    · rw [ha, nm _ _ hc]; exact List.mem_of_elem_eq_true rfl
    refine step _ _ _ _ h (fun hc ha => ?_) (fun h => ?_)
    · rw [ha, nm _ _ hc]; exact List.mem_of_elem_eq_true rfl
    refine step _ _ _ _ h (fun hc ha => ?_) (fun h => ?_)
    · rw [ha, nm _ _ hc]; exact List.mem_of_elem_eq_true rfl
    refine step _ _ _ _ h (fun hc ha => ?_) (fun h => ?_)
    · rw [ha]; exact List.mem_of_elem_eq_true rfl
    refine step _ _ _ _ h (fun hc ha => ?_) (fun h => ?_)
    · rw [ha]; exact List.mem_of_elem_eq_true rfl
    refine step _ _ _ _ h (fun hc ha => ?_) (fun h => ?_)
    · rw [ha]; exact List.mem_of_elem_eq_true rfl
    refine step _ _ _ _ h (fun hc ha => ?_) (fun h => ?_)
    · rw [ha]; exact List.mem_of_elem_eq_true rfl
    refine step _ _ _ _ h (fun hc ha => ?_) (fun h => ?_)
    · rw [ha]; exact List.mem_of_elem_eq_true rfl
    refine step _ _ _ _ h (fun hc ha => ?_) (fun h => ?_)
    · rw [ha]; exact List.mem_of_elem_eq_true rfl
    refine step _ _ _ _ h (fun hc ha => ?_) (fun h => ?_)
    · rw [ha, hb]; exact List.mem_of_elem_eq_true rfl
    refine step _ _ _ _ h (fun hc ha => ?_) (fun h => ?_)
    · rw [ha]; exact List.mem_of_elem_eq_true rfl
    · cases h
  have fin : ∀ n ∈ ["openblas_dgemm", "openblas_sgemm", "intelmkl_dgemm", "intelmkl_sgemm", "eigen_dgemm", "eigen_sgemm", "blaze_dgemm",
      "blaze_sgemm", "blaze_sdgemm", "blaze_dsgemm", "blasbooster_block", "native_dense"],
      (n.toList ≠ [] ∧ n.toList.all (fun c => c != ' ' && c != '\n') = true) ∧ n.toList.length < 30 := by decide
  exact ⟨plain _ (fin _ key).1, (fin _ key).2⟩

/-- How zero is written. -/
def zeroFmt : Fmt Unit
  | .scientific, p, _ => ("0" ++ (if 0 < p then "." else "")).toList ++ List.replicate p.toNat '0' ++ "e+00".toList
  | _, p, _ => ("0" ++ (if 0 < p then "." else "")).toList ++ List.replicate p.toNat '0'

/-- C115, negative: the option "number of digits of time duration" also decides how many digits of the norms are written. -/
theorem C115_norms_use_the_digits_of_times :
    fields (lineText zeroFmt 3 0 "native_dense".toList ⟨(), (), (), []⟩) =
      ["0".toList, "native_dense".toList, "0.000".toList, "0.000e+00".toList, "0.000e+00".toList] ∧
    fields (lineText zeroFmt 1 0 "native_dense".toList ⟨(), (), (), []⟩) =
      ["0".toList, "native_dense".toList, "0.0".toList, "0.0e+00".toList, "0.0e+00".toList] := by decide +kernel

/-- C115, negative: with nine digits the columns of the norms run into each other and into the details. -/
theorem C115_columns_merge :
    fields (lineText zeroFmt 9 0 "blasbooster_block".toList ⟨(), (), (), [("size".toList, ())]⟩) =
      ["0".toList, "blasbooster_block".toList, "0.000000000".toList, "0.000000000e+000.000000000e+00size:".toList, "0.000000000".toList, "s".toList] := by
  decide +kernel

/-- The hypotheses of `C115_fields_partial` are met by the default of three digits. -/
example : Plain (zeroFmt .fixed 3 ()) ∧ (zeroFmt .fixed 3 ()).length < 15 ∧ Plain (zeroFmt .scientific 3 ()) ∧ (zeroFmt .scientific 3 ()).length < 15 := by
  refine ⟨⟨by decide +kernel, ?_⟩, by decide +kernel, ⟨by decide +kernel, ?_⟩, by decide +kernel⟩ <;> decide +kernel

/-- A whole run meets the hypotheses of `C115_run_fields_partial`: two pairs of matrices. -/
example : letI : Zero Unit := ⟨()⟩
    ∀ l ∈ runLines 0 [[("native_dense".toList, (⟨(), (), (), []⟩ : Result Unit)), ("eigen_dgemm".toList, ⟨(), (), (), [("size".toList, ())]⟩)],
    [("native_dense".toList, ⟨(), (), (), []⟩)]], FitsLine zeroFmt 3 l.1 l.2.1 l.2.2 := by
  have hz : Plain (zeroFmt .fixed 3 ()) ∧ (zeroFmt .fixed 3 ()).length < 15 :=
    ⟨⟨by decide +kernel, by decide +kernel⟩, by decide +kernel⟩
  have hs : Plain (zeroFmt .scientific 3 ()) ∧ (zeroFmt .scientific 3 ()).length < 15 :=
    ⟨⟨by decide +kernel, by decide +kernel⟩, by decide +kernel⟩
  intro l hl
  simp only [runLines, List.map_cons, List.map_nil, List.cons_append, List.nil_append, List.append_nil, List.mem_cons, List.not_mem_nil, or_false] at hl
  rcases hl with rfl | rfl | rfl
  · exact ⟨by decide +kernel, ⟨⟨by decide +kernel, by decide +kernel⟩, by decide +kernel⟩, hz, hs, hs, nofun⟩
  · refine ⟨by decide +kernel, ⟨⟨by decide +kernel, by decide +kernel⟩, by decide +kernel⟩, hz, hs, hs, ?_⟩
    intro x hx
    rcases List.mem_singleton.1 hx with rfl
    exact ⟨⟨by decide +kernel, by decide +kernel⟩, hz.1⟩
  · exact ⟨by decide +kernel, ⟨⟨by decide +kernel, by decide +kernel⟩, by decide +kernel⟩, hz, hs, hs, nofun⟩

/-! ### The table of the tracker -/

namespace Table

/-- A column whose text stands on the right. -/
def columnR (w : Nat) (t : List Char) : List Char := List.replicate (w - t.length) ' ' ++ t

/-- One row of the table of the tracker, in a stream whose adjustment is `left`. -/
def trackerRow (left : Bool) (r : String × Nat × Int) : List Char :=
  (if left then column 20 r.1.toList ++ column 10 (digits r.2.1) else columnR 20 r.1.toList ++ columnR 10 (digits r.2.1)) ++
    intText r.2.2 ++ " ns\n".toList

theorem trackerRows_eq (rows : List (String × Nat × Int)) {s : Stream} (h : s.width = 0) :
    trackerRows rows s = { s with out := s.out ++ rows.flatMap (trackerRow s.left) } := by
  induction rows generalizing s with
  | nil => simp [trackerRows]
  | cons r rows ih =>
    obtain ⟨name, count, time⟩ := r
    obtain ⟨out, left, field, prec, width, acc⟩ := s
    simp only at h
    subst h
    rw [trackerRows, ih (by rfl)]
    cases left <;> simp [Stream.put, Stream.setw, trackerRow, column, columnR, List.append_assoc]

end Table

/-- C115: the table of the tracker: the heading, then one row for every operation with a count other than 0, in the order of the
operations. -/
theorem C115_tracker_text (b : Build) (r : Tracker.Reg) (s : Stream) (hs : s.width = 0) (rows : List (String × Nat × Int))
    (hr : Tracker.report b r = .ok rows) :
    ∃ s', tracker b r s = .ok s' ∧ s'.out = s.out ++ ['\n'] ++
      (if s.left then column 20 "tracker".toList ++ column 10 "count".toList else columnR 20 "tracker".toList ++ columnR 10 "count".toList) ++
      "time\n".toList ++ List.replicate 60 '-' ++ ['\n'] ++ rows.flatMap (trackerRow s.left) := by
  have gen : ∀ (a b c d e f : List Char), (((((((s.put a).setw 20).put b).setw 10).put c).put d).put e |>.put f) =
      { s with out := s.out ++ a ++ (if s.left then column 20 b ++ column 10 c else columnR 20 b ++ columnR 10 c) ++ d ++ e ++ f } := by
    intro a b c d e f
    obtain ⟨out, left, field, prec, width, acc⟩ := s
    simp only at hs
    subst hs
    cases left <;> simp [Stream.put, Stream.setw, column, columnR, List.append_assoc]
  refine ⟨_, by simp only [tracker, hr, bind_ok', pure_ok']; rfl, ?_⟩
  rw [gen, trackerRows_eq _ (by exact hs)]
  rfl

theorem intText_plain (time : Int) : Plain (intText time) := by
  unfold intText
  split
  · exact ⟨by simp, fun c hc => by
      rcases List.mem_cons.1 hc with rfl | h
      · decide
      · exact (digits_plain _).2 c h⟩
  · exact digits_plain _

theorem fields_ns {t : List Char} (h : Plain t) : fields (t ++ " ns\n".toList) = [t, "ns".toList] := by
  rw [show (" ns\n".toList) = ' ' :: ("ns".toList ++ '\n' :: []) from rfl, fields_word h ' ' (.inl rfl),
    fields_word (t := "ns".toList) ⟨by decide, by decide⟩ '\n' (.inr rfl)]
  rfl

/-- C115, part that holds: after the benchmark table (left adjustment) a row reads as name, count, time, unit, provided the name is
a word of less than 20 characters.  (Missing: longer names, see `C115_tracker_columns_merge`.) -/
theorem C115_tracker_fields_partial (name : String) (count : Nat) (time : Int) (hn : Plain name.toList) (hl : name.toList.length < 20)
    (hc : (digits count).length < 10) :
    fields (trackerRow true (name, count, time)) = [name.toList, digits count, intText time, "ns".toList] := by
  simp only [trackerRow, if_true, List.append_assoc]
  rw [fields_column hn hl, fields_column (digits_plain count) hc, fields_ns (intText_plain time)]

/-- C115, negative, for every count and time: a row whose name has 20 or more characters shows the count as part of the name; and in
a stream with the usual right adjustment every row shows count and time as one number. -/
theorem C115_tracker_columns_merge (name : String) (count : Nat) (time : Int) (hn : Plain name.toList) (hc : (digits count).length < 10) :
    (20 ≤ name.toList.length →
      fields (trackerRow true (name, count, time)) = [name.toList ++ digits count, intText time, "ns".toList]) ∧
    fields (trackerRow false (name, count, time)) = [name.toList, digits count ++ intText time, "ns".toList] := by
  constructor
  · intro hl
    have e : trackerRow true (name, count, time) =
        column (name.toList.length + 10) (name.toList ++ digits count) ++ (intText time ++ " ns\n".toList) := by
      have h1 : 20 - name.toList.length = 0 := by omega
      have h2 : name.toList.length + 10 - (name.toList ++ digits count).length = 10 - (digits count).length := by
        rw [List.length_append]; omega
      simp only [trackerRow, if_true, column, h1, h2, List.replicate_zero, List.append_nil, List.append_assoc]
    rw [e, fields_column (plain_append hn (digits_plain count).2) (by rw [List.length_append]; omega), fields_ns (intText_plain time)]
  · obtain ⟨k, hk⟩ : ∃ k, 10 - (digits count).length = k + 1 := ⟨10 - (digits count).length - 1, by omega⟩
    have h2 : trackerRow false (name, count, time) = List.replicate (20 - name.toList.length) ' ' ++
        (name.toList ++ ' ' :: (List.replicate k ' ' ++ ((digits count ++ intText time) ++ " ns\n".toList))) := by
      simp only [trackerRow, Bool.false_eq_true, if_false, columnR, hk, List.replicate_succ, List.cons_append, List.append_assoc]
    rw [h2, fields_blanks, fields_word hn ' ' (.inl rfl), fields_blanks, fields_ns (plain_append (digits_plain count) (intText_plain time).2)]

/-- C115: the count and the time of a row are printed as decimal numbers. -/
theorem C115_tracker_numbers (count : Nat) (time : Int) :
    digits count = (toString count).toList ∧ intText time = (toString time).toList := by
  have h : ∀ n : Nat, digits n = (toString n).toList := fun n => by
    show Nat.toDigits 10 n = (String.ofList (Nat.toDigits 10 n)).toList
    rw [String.toList_ofList]
  refine ⟨h count, ?_⟩
  cases time with
  | ofNat n =>
    rw [intText, if_neg (by simp)]
    exact h n
  | negSucc n =>
    rw [intText, if_pos (Int.negSucc_lt_zero n)]
    show _ = ("-" ++ toString (n + 1)).toList
    rw [String.toList_append, ← h]
    rfl

/-- C115: three of the names are that long, the others are shorter. -/
theorem C115_tracker_names : ∀ n ∈ Tracker.idNames, Plain n.toList ∧
    (20 ≤ n.toList.length ↔ n ∈ ["IntelMKL_dcsrmultcsr", "IntelMKL_scsrmultcsr", "get_detection_arrays"]) := by
  have : ∀ n ∈ Tracker.idNames, (n.toList ≠ [] ∧ n.toList.all (fun c => c != ' ' && c != '\n') = true) ∧
      (20 ≤ n.toList.length ↔ n ∈ ["IntelMKL_dcsrmultcsr", "IntelMKL_scsrmultcsr", "get_detection_arrays"]) := by decide +kernel
  intro n hn
  obtain ⟨⟨h1, h2⟩, h3⟩ := this n hn
  refine ⟨⟨h1, fun c hc => ?_⟩, h3⟩
  have := List.all_eq_true.1 h2 c hc
  simpa using this

/-- A register with one call each of two operations, printed after the benchmark table. -/
example : fields (trackerRow true ("get_detection_arrays", 1, 25)) = ["get_detection_arrays1".toList, "25".toList, "ns".toList] ∧
    fields (trackerRow true ("get_block_size", 1, 25)) = ["get_block_size".toList, "1".toList, "25".toList, "ns".toList] := by decide +kernel

end BB
