import Verif.Model.Pattern
import Verif.Lemmas.Dense

/-!
# C53: pattern generator
-/

namespace BB

variable {R : Type}

namespace PatternSettings

/-- Specification: the colour of a value is that of the first palette entry whose threshold does not exceed its
absolute value, else the background. -/
def IsPixel [LinearOrder R] [AddGroup R] (S : PatternSettings R) (x : R) (s : String) : Prop :=
  (∃ (l1 l2 : List (Color R)) (c : Color R), S.palette = l1 ++ c :: l2 ∧ c.threshold ≤ |x| ∧ (∀ d ∈ l1, |x| < d.threshold) ∧ s = c.index) ∨
  ((∀ d ∈ S.palette, |x| < d.threshold) ∧ s = S.backgroundIndex)

theorem pixelLoop_isPixel [LinearOrder R] (a : R) (bg : String) (l : List (Color R)) :
    (∃ (l1 l2 : List (Color R)) (c : Color R), l = l1 ++ c :: l2 ∧ c.threshold ≤ a ∧ (∀ d ∈ l1, a < d.threshold) ∧ pixelLoop a l bg = c.index) ∨
    ((∀ d ∈ l, a < d.threshold) ∧ pixelLoop a l bg = bg) := by
  induction l with
  | nil => exact .inr ⟨by simp, rfl⟩
  | cons c l ih =>
    by_cases h : c.threshold ≤ a
    · exact .inl ⟨[], l, c, rfl, h, by simp, by simp [pixelLoop, h]⟩
    · rcases ih with ⟨l1, l2, d, e, hd, hl, hp⟩ | ⟨hl, hp⟩
      · refine .inl ⟨c :: l1, l2, d, by rw [e]; rfl, hd, ?_, by simp only [pixelLoop, if_neg h]; exact hp⟩
        intro d' hd'
        rcases List.mem_cons.1 hd' with rfl | h'
        · exact not_le.1 h
        · exact hl d' h'
      · refine .inr ⟨?_, by simp only [pixelLoop, if_neg h]; exact hp⟩
        intro d' hd'
        rcases List.mem_cons.1 hd' with rfl | h'
        · exact not_le.1 h
        · exact hl d' h'

/-- The specification determines the colour. -/
theorem IsPixel.unique [LinearOrder R] [AddGroup R] {S : PatternSettings R} {x : R} {s t : String} (hs : S.IsPixel x s) (ht : S.IsPixel x t) : s = t := by
  have key : ∀ (l1 l2 l1' l2' : List (Color R)) (c c' : Color R), l1 ++ c :: l2 = l1' ++ c' :: l2' → c.threshold ≤ |x| → c'.threshold ≤ |x| →
      (∀ d ∈ l1, |x| < d.threshold) → (∀ d ∈ l1', |x| < d.threshold) → c = c' := by
    intro l1
    induction l1 with
    | nil =>
      intro l2 l1' l2' c c' e hc hc' h1 h1'
      cases l1' with
      | nil => simp at e; exact e.1
      | cons d l1' =>
        simp at e
        exact absurd hc (not_le.2 (e.1 ▸ h1' d (by simp)))
    | cons d l1 ih =>
      intro l2 l1' l2' c c' e hc hc' h1 h1'
      cases l1' with
      | nil =>
        simp at e
        exact absurd hc' (not_le.2 (e.1 ▸ h1 d (by simp)))
      | cons d' l1' =>
        simp at e
        exact ih l2 l1' l2' c c' e.2 hc hc' (fun d hd => h1 d (by simp [hd])) (fun d hd => h1' d (by simp [hd]))
  rcases hs with ⟨l1, l2, c, e, hc, h1, rfl⟩ | ⟨h1, rfl⟩ <;> rcases ht with ⟨l1', l2', c', e', hc', h1', rfl⟩ | ⟨h1', rfl⟩
  · rw [key l1 l2 l1' l2' c c' (e.symm.trans e') hc hc' h1 h1']
  · exact absurd hc (not_le.2 (h1' c (by rw [e]; simp)))
  · exact absurd hc' (not_le.2 (h1 c' (by rw [e']; simp)))
  · rfl

/-- The data section that the specification asks for: per row a quote, the colours of its elements from left to right,
and a quote, followed by a comma and a line break except in the last row. -/
def dataSection (px : Nat → Nat → String) (r c : Nat) : List String :=
  (List.range r).flatMap (fun i => "\"" :: (List.range c).map (px i) ++ (if i + 1 = r then ["\""] else ["\",", "\n"]))

/-- The line of the palette for a colour. -/
def colourLine (index color : String) : String := "\"" ++ index ++ "\tc #" ++ color ++ "\",\n"

/-- The heading of an XPM image of `width` times `height` pixels, one character per pixel, with the given colours. -/
def xpmHeading (width height : Nat) (colours : List (String × String)) : String :=
  "/* XPM */\nstatic char * matrix_xpm[] = {\n\"" ++ toString width ++ " " ++ toString height ++ " " ++ toString colours.length ++ " 1\",\n" ++
  String.join (colours.map fun c => colourLine c.1 c.2) ++ "/* Data section */\n"

theorem join_append (l l' : List String) : String.join (l ++ l') = String.join l ++ String.join l' := by
  induction l with
  | nil => simp
  | cons a l ih => rw [List.cons_append, String.join_cons, String.join_cons, ih, String.append_assoc]

theorem heading_eq (S : PatternSettings R) (r c : Nat) :
    String.join (S.heading r c) = xpmHeading c r (S.palette.map (fun k => (k.index, k.color)) ++ [(S.backgroundIndex, S.backgroundColor)]) := by
  have h : ∀ l : List (Color R), String.join (l.flatMap (fun c => ["\"", c.index, "\tc #", c.color, "\",", "\n"])) =
      String.join (l.map (fun k => colourLine k.index k.color)) := by
    intro l
    induction l with
    | nil => rfl
    | cons a l ih =>
      rw [List.flatMap_cons, join_append, ih, List.map_cons, String.join_cons]
      simp [colourLine, String.join_cons, String.append_assoc]
  unfold heading xpmHeading
  simp only [join_append, h, List.map_append, List.map_map, List.length_append, List.length_map, List.length_singleton]
  simp only [String.join_cons, String.join_nil, List.map_cons, List.map_nil, colourLine, String.append_assoc, Function.comp_def, String.append_empty]
  rfl

/-- C53: for every palette and every dense matrix or submatrix of either orientation the generator never faults and
writes the heading (width, height, number of colours, palette, background), then for every row and every column in
order exactly one colour, which is that of the first palette entry whose threshold does not exceed the absolute value
of the element, else the background. -/
theorem C53_pattern [LinearOrder R] [AddGroup R] (S : PatternSettings R) (v : View) (b : Buf R) (f : Nat → Nat → R) (hf : v.Fits b.length)
    (hv : v.Reads b f) (hr : v.rows < 2 ^ 64) :
    ∃ (out : List String) (px : Nat → Nat → String), S.generate v b = .ok out ∧ (∀ i j, S.IsPixel (f i j) (px i j)) ∧
      String.join out = xpmHeading v.cols v.rows (S.palette.map (fun k => (k.index, k.color)) ++ [(S.backgroundIndex, S.backgroundColor)]) ++
        String.join (dataSection px v.rows v.cols) ++ "};\n" := by
  let px : Nat → Nat → String := fun i j => pixelLoop |f i j| S.palette S.backgroundIndex
  have hpx : ∀ i j, S.IsPixel (f i j) (px i j) := fun i j => pixelLoop_isPixel |f i j| S.backgroundIndex S.palette
  let rowText : Nat → List String := fun i => "\"" :: (List.range v.cols).map (px i) ++ (if i + 1 = v.rows then ["\""] else ["\",", "\n"])
  have hrow : ∀ (i : Nat) (out : List String), i < v.rows → S.rowStep v b i out = .ok (out ++ rowText i) := by
    intro i out hi
    have hl : Sat (ptrLoop (v.rowBegin i) (v.rowEnd i) v.rowStride (S.cellStep b) (out ++ ["\""]))
        (fun o => o = out ++ ["\""] ++ (List.range v.cols).map (px i)) := by
      refine Sat.rowLoop hf hi (fun j o => o = out ++ ["\""] ++ (List.range j).map (px i)) (by simp) ?_
      rintro j o hj rfl
      have hrd := hv i j hi hj
      rw [View.get_eq hi hj] at hrd
      refine Sat.read hrd (Sat.pure ?_)
      rw [List.range_succ, List.map_append]
      simp [px]
    obtain ⟨o, ho, rfl⟩ := hl
    unfold rowStep
    rw [ho, bind_ok']
    have hw : i = (v.rows + (sizeMod - 1)) % sizeMod ↔ i + 1 = v.rows := by
      have : v.rows + (sizeMod - 1) = (v.rows - 1) + sizeMod := by simp only [sizeMod]; omega
      rw [this, Nat.add_mod_right, Nat.mod_eq_of_lt (by simp only [sizeMod]; omega)]
      omega
    by_cases h : i + 1 = v.rows
    · rw [if_pos (hw.2 h)]
      simp [rowText, h]
    · rw [if_neg (fun e => h (hw.1 e))]
      simp [rowText, h]
  have hall : Sat (ptrLoop 0 v.rows 1 (S.rowStep v b) (S.heading v.rows v.cols))
      (fun o => o = S.heading v.rows v.cols ++ (List.range v.rows).flatMap rowText) := by
    refine Sat.raw (fun i o => o = S.heading v.rows v.cols ++ (List.range i).flatMap rowText) (by simp) ?_
    rintro i o hi rfl
    refine Sat.of_eq (hrow i _ hi) ?_
    rw [List.range_succ, List.flatMap_append]
    simp
  obtain ⟨o, ho, rfl⟩ := hall
  exact ⟨_, px, by unfold generate; rw [ho]; rfl, hpx, by
    rw [join_append, join_append, heading_eq]
    rfl⟩

/-- C53: with one-character indices every data row of the image has as many characters between the quotes as the matrix
has columns, as the heading announces. -/
theorem C53_row_width [LinearOrder R] [AddGroup R] (S : PatternSettings R) (f : Nat → Nat → R) (px : Nat → Nat → String)
    (hp : ∀ i j, S.IsPixel (f i j) (px i j)) (h1 : ∀ c ∈ S.palette, c.index.length = 1) (h2 : S.backgroundIndex.length = 1) (i c : Nat) :
    (String.join ((List.range c).map (px i))).length = c := by
  have hl : ∀ j, (px i j).length = 1 := by
    intro j
    rcases hp i j with ⟨l1, l2, c, e, -, -, h⟩ | ⟨-, h⟩
    · rw [h]; exact h1 c (by rw [e]; simp)
    · rw [h]; exact h2
  have hj : ∀ (l : List String), (∀ s ∈ l, s.length = 1) → (String.join l).length = l.length := by
    intro l h
    induction l with
    | nil => rfl
    | cons s l ih =>
      rw [String.join_cons, String.length_append, h s (by simp), ih (fun t ht => h t (by simp [ht]))]
      simp; omega
  rw [hj _ (by intro s hs; obtain ⟨j, -, rfl⟩ := List.mem_map.1 hs; exact hl j)]
  simp

/-- Non-vacuity: two thresholds; -3 has the first colour, 1 the second, 0 the background. -/
example : (PatternSettings.generate (R := Int) ⟨[⟨"a", "ff0000", 2⟩, ⟨"b", "00ff00", 1⟩], ".", "ffffff"⟩ (View.plain .col 1 3)
    [some (-3), some 1, some 0]).toOption.map String.join =
    some "/* XPM */\nstatic char * matrix_xpm[] = {\n\"3 1 3 1\",\n\"a\tc #ff0000\",\n\"b\tc #00ff00\",\n\".\tc #ffffff\",\n/* Data section */\n\"ab.\"};\n" := by
  decide +kernel

end PatternSettings

end BB
