import Verif.Props.Show
import Verif.Props.Print
import Verif.Props.Table

/-!
# C135: pattern images can be read back

Specification: an XPM file is a C source text whose string literals are, in order: `"<width> <height> <colours> 1"`, one literal
per colour (`<key><tab>c <colour>`) and one literal per row, a key per pixel.  `Xpm.read` is a reader of such files that knows
nothing about the generator.
-/

namespace BB.Xpm

open BB PatternSettings

/-- The string literals of a C text without escape sequences: what stands between a quote and the next one.  The first argument is
the literal read so far. -/
def literals : Option (List Char) → List Char → List (List Char)
  | _, [] => []
  | none, c :: s => if c = '"' then literals (some []) s else literals none s
  | some a, c :: s => if c = '"' then a :: literals none s else literals (some (a ++ [c])) s

/-- A decimal number. -/
def number (l : List Char) : Option Nat := if l ≠ [] ∧ l.all Char.isDigit then some (Nat.ofDigitChars 10 l 0) else none

/-- A line of the palette: key and colour. -/
def colour : List Char → Option (Char × List Char)
  | k :: '\t' :: 'c' :: ' ' :: v => some (k, v)
  | _ => none

structure Image where
  width : Nat
  height : Nat
  rows : List (List (List Char))

/-- The colour of the pixel in row `i` and column `j`. -/
def Image.at (I : Image) (i j : Nat) : Option (List Char) := (I.rows[i]?).bind (·[j]?)

/-- The colour of a key. -/
def lookup (cs : List (Char × List Char)) (k : Char) : Option (List Char) := (cs.find? (fun c => c.1 == k)).map (·.2)

/-- Reads a file. -/
def read (text : List Char) : Option Image :=
  match literals none text with
  | [] => none
  | h :: ls =>
    if (h :: ls).any (fun l => l.contains '\\') then none
    else match (Print.words h).map number with
      | [some w, some ht, some n, some 1] => do
        let cs ← (ls.take n).mapM colour
        let rows ← (ls.drop n).mapM (fun l => l.mapM (lookup cs))
        if cs.length = n ∧ rows.length = ht ∧ (∀ r ∈ rows, r.length = w) then some ⟨w, ht, rows⟩ else none
      | _ => none

example : (read "/* XPM */\nstatic char * m[] = {\n\"2 1 2 1\",\n\"a\tc #ff0000\",\n\"b\tc #000000\",\n/* Data */\n\"ba\"};\n".toList).map (·.rows) =
    some [["#000000".toList, "#ff0000".toList]] := by decide +kernel

/-! ### Literals -/

theorem literals_skip (u s : List Char) (h : '"' ∉ u) : literals none (u ++ s) = literals none s := by
  induction u with
  | nil => rfl
  | cons c u ih =>
    rw [List.cons_append, literals, if_neg (fun e => h (by simp [e])), ih (fun e => h (by simp [e]))]

theorem literals_in (a u s : List Char) (h : '"' ∉ u) : literals (some a) (u ++ '"' :: s) = (a ++ u) :: literals none s := by
  induction u generalizing a with
  | nil => simp [literals]
  | cons c u ih =>
    rw [List.cons_append, literals, if_neg (fun e => h (by simp [e])), ih _ (fun e => h (by simp [e]))]
    simp

theorem literals_one (u s : List Char) (h : '"' ∉ u) : literals none ('"' :: (u ++ '"' :: s)) = u :: literals none s := by
  rw [literals, if_pos rfl, literals_in _ _ _ h]; rfl

theorem mapM_some {α β : Type} {f : α → Option β} {g : α → β} (l : List α) (h : ∀ x ∈ l, f x = some (g x)) : l.mapM f = some (l.map g) := by
  induction l with
  | nil => rfl
  | cons a l ih =>
    rw [List.mapM_cons, h a (by simp), ih (fun x hx => h x (by simp [hx]))]
    rfl

/-! ### C135 -/

variable {R : Type}

/-- The palette has one key of one character per colour, different from the others, and neither keys nor colours contain a quote
or a backslash. -/
structure Plain (S : PatternSettings R) : Prop where
  key : ∀ e ∈ S.palette.map (fun k => (k.index, k.color)) ++ [(S.backgroundIndex, S.backgroundColor)],
    e.1.toList.length = 1 ∧ '"' ∉ e.1.toList ∧ '\\' ∉ e.1.toList ∧ '"' ∉ e.2.toList ∧ '\\' ∉ e.2.toList
  distinct : ((S.palette.map (fun k => (k.index, k.color)) ++ [(S.backgroundIndex, S.backgroundColor)]).map (·.1)).Nodup

/-- The colour that the value `x` is to have: that of the first entry of the palette whose threshold does not exceed `|x|`, else the
background. -/
def IsColour [LinearOrder R] [AddGroup R] (S : PatternSettings R) (x : R) (v : List Char) : Prop :=
  (∃ (l1 l2 : List (Color R)) (c : Color R), S.palette = l1 ++ c :: l2 ∧ c.threshold ≤ |x| ∧ (∀ d ∈ l1, |x| < d.threshold) ∧
    v = '#' :: c.color.toList) ∨
  ((∀ d ∈ S.palette, |x| < d.threshold) ∧ v = '#' :: S.backgroundColor.toList)

/-- The key of an entry. -/
def keyOf (s : String) : Char := s.toList.headD ' '

theorem keyOf_eq {s : String} (h : s.toList.length = 1) : s.toList = [keyOf s] := by
  unfold keyOf
  generalize s.toList = l at *
  match l, h with
  | [c], _ => rfl

def entries (S : PatternSettings R) : List (String × String) :=
  S.palette.map (fun k => (k.index, k.color)) ++ [(S.backgroundIndex, S.backgroundColor)]

def paletteLine (e : String × String) : List Char := e.1.toList ++ ['\t', 'c', ' ', '#'] ++ e.2.toList

theorem colourLine_chars (e : String × String) : (colourLine e.1 e.2).toList = '"' :: (paletteLine e ++ '"' :: [',', '\n']) := by
  have h1 : "\"".toList = ['"'] := by decide +kernel
  have h2 : "\tc #".toList = ['\t', 'c', ' ', '#'] := by decide +kernel
  have h3 : "\",\n".toList = ['"', ',', '\n'] := by decide +kernel
  unfold colourLine paletteLine
  simp only [String.toList_append, h1, h2, h3]
  simp

theorem literals_palette (es : List (String × String)) (s : List Char)
    (h : ∀ e ∈ es, '"' ∉ e.1.toList ∧ '"' ∉ e.2.toList) :
    literals none ((String.join (es.map fun c => colourLine c.1 c.2)).toList ++ s) = es.map paletteLine ++ literals none s := by
  induction es with
  | nil => simp
  | cons e es ih =>
    have he := h e (by simp)
    rw [List.map_cons, String.join_cons, String.toList_append, colourLine_chars, List.append_assoc]
    have hq : '"' ∉ paletteLine e := by
      unfold paletteLine
      simp [he.1, he.2]
    rw [List.cons_append, List.append_assoc, List.cons_append, literals_one _ _ hq,
      literals_skip [',', '\n'] _ (by decide), ih (fun e he => h e (by simp [he]))]
    rfl

theorem literals_data (px : Nat → Nat → String) (r c : Nat) (n : Nat) (s : List Char) (hpx : ∀ i j, i < n → j < c → '"' ∉ (px i j).toList) :
    literals none ((String.join ((List.range n).flatMap (fun i => "\"" :: (List.range c).map (px i) ++ (if i + 1 = r then ["\""] else ["\",", "\n"])))).toList ++ s) =
      (List.range n).map (fun i => (List.range c).flatMap (fun j => (px i j).toList)) ++ literals none s := by
  have joined : ∀ (l : List Nat) (g : Nat → String), (String.join (l.map g)).toList = l.flatMap (fun j => (g j).toList) := by
    intro l g
    induction l with
    | nil => simp
    | cons a l ih => rw [List.map_cons, String.join_cons, String.toList_append, ih, List.flatMap_cons]
  induction n generalizing s with
  | zero => simp
  | succ n ih =>
    rw [List.range_succ, List.flatMap_append, join_append, String.toList_append, List.append_assoc,
      ih _ (fun i j hi hj => hpx i j (by omega) hj), List.map_append, List.append_assoc]
    congr 1
    have h1 : "\"".toList = ['"'] := by decide +kernel
    have h2 : "\",".toList = ['"', ','] := by decide +kernel
    have h3 : "\n".toList = ['\n'] := by decide +kernel
    have hq : '"' ∉ (List.range c).flatMap (fun j => (px n j).toList) := by
      intro hm
      obtain ⟨j, hj, hm⟩ := List.mem_flatMap.1 hm
      exact hpx n j (by omega) (List.mem_range.1 hj) hm
    rw [List.flatMap_singleton, List.cons_append, String.join_cons, join_append, String.toList_append, String.toList_append, joined, h1]
    by_cases e : n + 1 = r
    · rw [if_pos e]
      simp only [String.join_cons, String.join_nil, String.append_empty, h1, List.map_cons, List.map_nil,
        List.cons_append, List.append_assoc]
      rw [List.nil_append, literals_one _ _ hq]
      rfl
    · rw [if_neg e]
      simp only [String.join_cons, String.join_nil, String.append_empty, String.toList_append, h2, h3, List.map_cons, List.map_nil,
        List.cons_append, List.append_assoc, List.nil_append]
      rw [literals_one _ _ hq]
      exact congrArg _ (literals_skip [',', '\n'] s (by decide))

theorem digits_toList (n : Nat) : (toString n).toList = Nat.toDigits 10 n := (BB.C115_tracker_numbers n 0).1.symm

theorem digit_plain {n : Nat} {c : Char} (h : c ∈ (toString n).toList) : c.isDigit = true := by
  rw [digits_toList] at h
  exact Nat.isDigit_of_mem_toDigits (by decide) (by decide) h

theorem digits_ne_nil (n : Nat) : (toString n).toList ≠ [] := by
  rw [digits_toList]; exact Nat.toDigits_ne_nil

theorem not_mem_digits {n : Nat} {c : Char} (h : c.isDigit = false) : c ∉ (toString n).toList := fun hm => by
  rw [digit_plain hm] at h; exact absurd h (by decide)

theorem not_mem_toDigits {n : Nat} {c : Char} (h : c.isDigit = false) : c ∉ Nat.toDigits 10 n := by
  rw [← digits_toList]; exact not_mem_digits h

theorem number_toString (n : Nat) : number (toString n).toList = some n := by
  unfold number
  rw [if_pos ⟨digits_ne_nil n, List.all_eq_true.2 fun c hc => digit_plain hc⟩, digits_toList, Nat.ofDigitChars_ten_toDigits]

theorem words_one (n : Nat) : Print.words (toString n).toList = [(toString n).toList] :=
  Print.words_blanks 0 _ (digits_ne_nil n) (fun c hc e => by subst e; exact absurd (digit_plain hc) (by decide))

/-- The first literal: width, height, number of colours and 1. -/
def header (w h n : Nat) : List Char :=
  (toString w).toList ++ ' ' :: ((toString h).toList ++ ' ' :: ((toString n).toList ++ ' ' :: ['1']))

theorem header_numbers (w h n : Nat) : (Print.words (header w h n)).map number = [some w, some h, some n, some 1] := by
  unfold header
  rw [Print.words_append, Print.words_append, Print.words_append, words_one, words_one, words_one]
  have h1 : Print.words ['1'] = [['1']] := by decide +kernel
  have h2 : number ['1'] = some 1 := by decide +kernel
  rw [h1]
  simp only [List.singleton_append, List.map_cons, List.map_nil, number_toString, h2]

theorem literals_heading (w h : Nat) (es : List (String × String)) (s : List Char) (he : ∀ e ∈ es, '"' ∉ e.1.toList ∧ '"' ∉ e.2.toList) :
    literals none ((xpmHeading w h es).toList ++ s) = header w h es.length :: (es.map paletteLine ++ literals none s) := by
  have h1 : "/* XPM */\nstatic char * matrix_xpm[] = {\n\"".toList = "/* XPM */\nstatic char * matrix_xpm[] = {\n".toList ++ ['"'] := by
    decide +kernel
  have h1' : '"' ∉ "/* XPM */\nstatic char * matrix_xpm[] = {\n".toList := by decide +kernel
  have h2 : " 1\",\n".toList = [' ', '1', '"', ',', '\n'] := by decide +kernel
  have h3 : '"' ∉ "/* Data section */\n".toList := by decide +kernel
  have h4 : " ".toList = [' '] := by decide +kernel
  have hq : '"' ∉ header w h es.length := by
    unfold header
    simp [not_mem_toDigits (show ('"' : Char).isDigit = false by decide)]
  unfold xpmHeading
  simp only [String.toList_append, h1, h2, h4]
  generalize "/* XPM */\nstatic char * matrix_xpm[] = {\n".toList = pre at *
  generalize "/* Data section */\n".toList = dat at *
  have e : (pre ++ ['"'] ++ (toString w).toList ++ [' '] ++ (toString h).toList ++ [' '] ++ (toString es.length).toList ++
      [' ', '1', '"', ',', '\n'] ++ (String.join (es.map fun c => colourLine c.1 c.2)).toList ++ dat ++ s) =
      pre ++ ('"' :: (header w h es.length ++ '"' :: ([',', '\n'] ++ ((String.join (es.map fun c => colourLine c.1 c.2)).toList ++ (dat ++ s))))) := by
    unfold header
    simp [List.append_assoc]
  rw [e, literals_skip _ _ h1', literals_one _ _ hq, literals_skip [',', '\n'] _ (by decide), literals_palette es _ he,
    literals_skip _ _ h3]

theorem lookup_entry (es : List (String × String)) (hk : ∀ e ∈ es, e.1.toList.length = 1) (hd : (es.map (·.1)).Nodup) (e : String × String)
    (he : e ∈ es) : lookup (es.map fun e => (keyOf e.1, '#' :: e.2.toList)) (keyOf e.1) = some ('#' :: e.2.toList) := by
  have inj : ∀ a ∈ es, ∀ b ∈ es, keyOf a.1 = keyOf b.1 → a.1 = b.1 := by
    intro a ha b hb h
    have h1 := keyOf_eq (hk a ha)
    have h2 := keyOf_eq (hk b hb)
    rw [h] at h1
    exact String.toList_inj.1 (h1.trans h2.symm)
  unfold lookup
  induction es with
  | nil => simp at he
  | cons a es ih =>
    rw [List.map_cons, List.find?_cons]
    by_cases hae : keyOf a.1 = keyOf e.1
    · simp only [hae, beq_self_eq_true]
      have h1 := inj a (by simp) e he hae
      rcases List.mem_cons.1 he with rfl | he'
      · rfl
      · exact absurd (List.mem_map.2 ⟨e, he', h1.symm⟩) (List.nodup_cons.1 hd).1
    · have h2 : (keyOf a.1 == keyOf e.1) = false := by simp [hae]
      simp only [h2]
      rcases List.mem_cons.1 he with rfl | he'
      · exact absurd rfl hae
      · exact ih (fun x hx => hk x (by simp [hx])) (List.nodup_cons.1 hd).2 he' (fun x hx y hy => inj x (by simp [hx]) y (by simp [hy]))

/-- C135: a pattern image whose palette has distinct keys of one character can be read back: width, height, and for every pixel
the colour of the first entry of the palette whose threshold does not exceed the absolute value of the element. -/
theorem C135_read_back_partial [LinearOrder R] [AddGroup R] (S : PatternSettings R) (hS : Plain S) (r c : Nat) (f : Nat → Nat → R) (s : String)
    (hs : Show.Image S r c f s) :
    ∃ I, read s.toList = some I ∧ I.width = c ∧ I.height = r ∧
      ∀ i j, i < r → j < c → ∃ v, I.at i j = some v ∧ IsColour S (f i j) v := by
  obtain ⟨px, hpx, rfl⟩ := hs
  have hes : ∀ e ∈ entries S, e.1.toList.length = 1 ∧ '"' ∉ e.1.toList ∧ '\\' ∉ e.1.toList ∧ '"' ∉ e.2.toList ∧ '\\' ∉ e.2.toList := hS.key
  have hpe : ∀ i j, i < r → j < c → ∃ e ∈ entries S, px i j = e.1 ∧ IsColour S (f i j) ('#' :: e.2.toList) := by
    intro i j hi hj
    rcases hpx i j hi hj with ⟨l1, l2, k, e, hk, h1, h2⟩ | ⟨h1, h2⟩
    · refine ⟨(k.index, k.color), ?_, h2, .inl ⟨l1, l2, k, e, hk, h1, rfl⟩⟩
      unfold entries
      rw [e]; simp
    · refine ⟨(S.backgroundIndex, S.backgroundColor), ?_, h2, .inr ⟨h1, rfl⟩⟩
      unfold entries
      simp
  have hkey : ∀ i j, i < r → j < c → (px i j).toList = [keyOf (px i j)] := by
    intro i j hi hj
    obtain ⟨e, he, h, -⟩ := hpe i j hi hj
    rw [h]; exact keyOf_eq (hes e he).1
  have hrow : ∀ i, i < r → (List.range c).flatMap (fun j => (px i j).toList) = (List.range c).map (fun j => keyOf (px i j)) := by
    intro i hi
    rw [List.map_eq_flatMap]
    exact List.flatMap_congr fun j hj => hkey i j hi (List.mem_range.1 hj)
  have hlast : literals none "};\n".toList = [] := by decide +kernel
  let keys : List (List Char) := (List.range r).map fun i => (List.range c).map fun j => keyOf (px i j)
  have hl : literals none ((xpmHeading c r (entries S)) ++ String.join (dataSection px r c) ++ "};\n").toList =
      header c r (entries S).length :: ((entries S).map paletteLine ++ keys) := by
    rw [String.toList_append, String.toList_append, List.append_assoc,
      literals_heading _ _ _ _ (fun e he => ⟨(hes e he).2.1, (hes e he).2.2.2.1⟩)]
    unfold dataSection
    rw [literals_data px r c r _ ?_, hlast, List.append_nil]
    · congr 2
      exact List.map_congr_left fun i hi => hrow i (List.mem_range.1 hi)
    · intro i j hi hj
      obtain ⟨e, he, h, -⟩ := hpe i j hi hj
      rw [h]; exact (hes e he).2.1
  have hesc : ((header c r (entries S).length :: ((entries S).map paletteLine ++ keys)).any fun l => l.contains '\\') = false := by
    rw [List.any_eq_false]
    intro l hl
    simp only [List.mem_cons, List.mem_append, List.mem_map] at hl
    simp only [List.contains_iff_mem]
    rcases hl with rfl | ⟨e, he, rfl⟩ | hl
    · unfold header
      simp [not_mem_toDigits (show ('\\' : Char).isDigit = false by decide)]
    · unfold paletteLine
      simp [(hes e he).2.2.1, (hes e he).2.2.2.2]
    · obtain ⟨i, hi, rfl⟩ := List.mem_map.1 hl
      intro hm
      obtain ⟨j, hj, hm⟩ := List.mem_map.1 hm
      obtain ⟨e, he, h, -⟩ := hpe i j (List.mem_range.1 hi) (List.mem_range.1 hj)
      have := (hes e he).2.2.1
      rw [keyOf_eq (hes e he).1, ← h] at this
      exact this (by simp [hm])
  have hpal : ((entries S).map paletteLine).mapM colour = some ((entries S).map fun e => (keyOf e.1, '#' :: e.2.toList)) := by
    rw [List.mapM_map]
    refine mapM_some _ fun e he => ?_
    simp only [Function.comp, paletteLine, keyOf_eq (hes e he).1]
    rfl
  let value : Nat → Nat → List Char := fun i j => (lookup ((entries S).map fun e => (keyOf e.1, '#' :: e.2.toList)) (keyOf (px i j))).getD []
  have hval : ∀ i j, i < r → j < c → lookup ((entries S).map fun e => (keyOf e.1, '#' :: e.2.toList)) (keyOf (px i j)) = some (value i j) ∧
      IsColour S (f i j) (value i j) := by
    intro i j hi hj
    obtain ⟨e, he, h, hc⟩ := hpe i j hi hj
    have := lookup_entry (entries S) (fun e he => (hes e he).1) hS.distinct e he
    rw [← h] at this
    refine ⟨?_, ?_⟩
    · simp only [value, this, Option.getD_some]
    · simp only [value, this, Option.getD_some]; exact hc
  have hrows : keys.mapM (fun l => l.mapM (lookup ((entries S).map fun e => (keyOf e.1, '#' :: e.2.toList)))) =
      some ((List.range r).map fun i => (List.range c).map fun j => value i j) := by
    rw [List.mapM_map]
    refine mapM_some _ fun i hi => ?_
    simp only [Function.comp]
    rw [List.mapM_map]
    exact mapM_some _ fun j hj => (hval i j (List.mem_range.1 hi) (List.mem_range.1 hj)).1
  refine ⟨⟨c, r, (List.range r).map fun i => (List.range c).map fun j => value i j⟩, ?_, rfl, rfl, ?_⟩
  · change read ((xpmHeading c r (entries S)) ++ String.join (dataSection px r c) ++ "};\n").toList = _
    unfold read
    rw [hl]
    simp only [hesc, Bool.false_eq_true, if_false, header_numbers]
    have ht : ((entries S).map paletteLine ++ keys).take (entries S).length = (entries S).map paletteLine := by simp
    have hdr : ((entries S).map paletteLine ++ keys).drop (entries S).length = keys := by simp
    rw [ht, hdr, hpal]
    simp only [Option.bind_eq_bind, Option.bind_some]
    rw [hrows]
    simp
  · intro i j hi hj
    exact ⟨value i j, by simp [Image.at, hi, hj], (hval i j hi hj).2⟩

/-- C135 for the program: show_pattern with type `elements` exits with 0, and what it wrote to the pattern file can be read back. -/
theorem C135_elements_partial [Field R] [LinearOrder R] [IsStrictOrderedRing R] (b : Build) (rnd ex : R → R) (sort : List R → List Nat)
    (pow : Nat → R) (S : Show.Settings R) (hS : Plain S.pattern) (o : Show.Options) (w : Files.Disk R) (text : String → Option String)
    {A : Dense R} {r c : Nat} {f : Nat → Nat → R} (hR : Files.ofFile w o.matrixFile = .ok A) (hA : A.Is r c f) (hr : r < 2 ^ 64)
    (ht : o.patternType = "elements") (hw : w.writable o.patternFile = true) :
    ∃ text' s I, Show.main b rnd ex sort pow S o w text = (text', .ok 0) ∧ text' o.patternFile = some s ∧ read s.toList = some I ∧
      I.width = c ∧ I.height = r ∧ ∀ i j, i < r → j < c → ∃ v, I.at i j = some v ∧ IsColour S.pattern (f i j) v := by
  obtain ⟨text', s, h1, h2, h3⟩ := Show.C128_elements b rnd ex sort pow S o w text hR hA hr ht hw
  obtain ⟨I, h4, h5⟩ := C135_read_back_partial S.pattern hS r c f s h3
  exact ⟨text', s, I, h1, h2.1, h4, h5⟩

/-- C135, the specification determines the colours: no two colours fit one value. -/
theorem C135_colour_unique [LinearOrder R] [AddGroup R] (S : PatternSettings R) (x : R) (v v' : List Char) (h : IsColour S x v) (h' : IsColour S x v') :
    v = v' := by
  have key : ∀ (l1 l2 l1' l2' : List (Color R)) (c c' : Color R), l1 ++ c :: l2 = l1' ++ c' :: l2' → c.threshold ≤ |x| → c'.threshold ≤ |x| →
      (∀ d ∈ l1, |x| < d.threshold) → (∀ d ∈ l1', |x| < d.threshold) → c = c' := by
    intro l1 l2 l1' l2' c c' e hc hc' h1 h1'
    rcases List.append_eq_append_iff.1 e with ⟨m, rfl, e2⟩ | ⟨m, rfl, e2⟩
    · cases m with
      | nil => simp at e2; exact e2.1
      | cons d m =>
        simp at e2
        exact absurd (e2.1 ▸ hc) (not_le.2 (h1' d (by simp)))
    · cases m with
      | nil => simp at e2; exact e2.1.symm
      | cons d m =>
        simp at e2
        exact absurd (e2.1 ▸ hc') (not_le.2 (h1 d (by simp)))
  rcases h with ⟨l1, l2, c, e, hc, h1, rfl⟩ | ⟨h1, rfl⟩ <;> rcases h' with ⟨l1', l2', c', e', hc', h1', rfl⟩ | ⟨h1', rfl⟩
  · rw [key l1 l2 l1' l2' c c' (e.symm.trans e') hc hc' h1 h1']
  · exact absurd hc (not_le.2 (h1' c (by rw [e]; simp)))
  · exact absurd hc' (not_le.2 (h1 c' (by rw [e']; simp)))
  · rfl

/-- C135 (negation): a key of two characters, which the settings accept, gives a file that announces one character per pixel and
cannot be read. -/
theorem C135_long_key_counterexample :
    ((⟨[⟨"ab", "ff0000", 1⟩], "c", "000000"⟩ : PatternSettings Int).generate (View.plain .col 1 1) [some 5]).toOption.map
      (fun out => (read (String.join out).toList).isNone) = some true := by
  decide +kernel

/-- C135 (negation): two colours with the same key, which the settings accept, are the same colour in the file: the element 0 is
shown red instead of black. -/
theorem C135_equal_keys_counterexample :
    ((⟨[⟨"a", "ff0000", 1⟩], "a", "000000"⟩ : PatternSettings Int).generate (View.plain .col 1 1) [some 0]).toOption.map
      (fun out => (read (String.join out).toList).map (·.rows)) = some (some [["#ff0000".toList]]) := by
  decide +kernel

/-- The hypotheses are met: two colours and a background; the picture of `(5 -1; 0 2)`. -/
example : Plain (⟨[⟨"#", "ff0000", 2⟩, ⟨"+", "0000ff", 1⟩], ".", "ffffff"⟩ : PatternSettings Int) ∧
    ((⟨[⟨"#", "ff0000", 2⟩, ⟨"+", "0000ff", 1⟩], ".", "ffffff"⟩ : PatternSettings Int).generate (View.plain .col 2 2)
      [some 5, some 0, some (-1), some 2]).toOption.map (fun out => (read (String.join out).toList).map (·.rows)) =
      some (some [["#ff0000".toList, "#0000ff".toList], ["#ffffff".toList, "#ff0000".toList]]) := by
  refine ⟨⟨by decide +kernel, by decide +kernel⟩, by decide +kernel⟩

end BB.Xpm
