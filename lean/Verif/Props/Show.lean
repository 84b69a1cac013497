import Verif.Model.Show
import Verif.Props.Files
import Verif.Props.Info
import Verif.Props.Picture
import Verif.Props.Pattern
import Verif.Props.BlockSize
import Verif.Lemmas.BlockedMul

/-! C128: the program that shows the pattern of a matrix. -/

namespace BB.Show

variable {R : Type}

/-- Specification: the text `s` is the XPM image of the r×c matrix `f`: the heading (width, height, number of colours, palette, background), then
for every row and every column in order one colour: that of the first entry of the palette whose threshold does not exceed the
absolute value of the element, else the background. -/
def Image [LinearOrder R] [AddGroup R] (S : PatternSettings R) (r c : Nat) (f : Nat → Nat → R) (s : String) : Prop :=
  ∃ px : Nat → Nat → String, (∀ i j, i < r → j < c → S.IsPixel (f i j) (px i j)) ∧
    s = PatternSettings.xpmHeading c r (S.palette.map (fun k => (k.index, k.color)) ++ [(S.backgroundIndex, S.backgroundColor)]) ++
      String.join (PatternSettings.dataSection px r c) ++ "};\n"

/-- The files after a run that wrote the text `s` to the file `p`. -/
def Wrote (text text' : String → Option String) (p s : String) : Prop := text' p = some s ∧ ∀ q, q ≠ p → text' q = text q

theorem generate_image [LinearOrder R] [AddGroup R] (S : PatternSettings R) {A : Dense R} {r c : Nat} {f : Nat → Nat → R} (hA : A.Is r c f) (hr : r < 2 ^ 64) :
    ∃ l, S.generate A.view A.data = .ok l ∧ Image S r c f (String.join l) := by
  have hv : A.view.rows = r := by rw [hA.view_rows]; rfl
  have hc : A.view.cols = c := by rw [hA.view_rows]; rfl
  obtain ⟨l, px, e, hp, ht⟩ := S.C53_pattern A.view A.data f hA.fits (by
    intro i j hi hj
    exact hA.elems i j (by omega) (by omega)) (by omega)
  exact ⟨l, e, px, fun i j _ _ => hp i j, by rw [ht, hv, hc]⟩

section main

variable [Field R] [LinearOrder R] (b : Build) (rnd ex : R → R) (sort : List R → List Nat) (pow : Nat → R) (S : Settings R) (o : Options)
  (w : Files.Disk R) (text : String → Option String)

theorem main_wrote {b : Build} {rnd ex : R → R} {sort : List R → List Nat} {pow : Nat → R} {S : Settings R} {o : Options} {w : Files.Disk R}
    (text : String → Option String) {l : List String} (h : patternText b rnd ex sort pow S o w = .ok l) (hw : w.writable o.patternFile = true) :
    ∃ text', main b rnd ex sort pow S o w text = (text', .ok 0) ∧ Wrote text text' o.patternFile (String.join l) := by
  exact ⟨fun p => if p = o.patternFile then some (String.join l) else text p, by rw [main, h]; simp only [hw, if_true], by simp, fun q hq => by simp [hq]⟩

/-- C128, type "elements": for every matrix that can be read, of any dimensions, the program exits with 0 and the file holds the image of
the matrix; no other file changes. -/
theorem C128_elements {A : Dense R} {r c : Nat} {f : Nat → Nat → R} (hR : Files.ofFile w o.matrixFile = .ok A) (hA : A.Is r c f) (hr : r < 2 ^ 64)
    [IsStrictOrderedRing R] (ht : o.patternType = "elements") (hw : w.writable o.patternFile = true) :
    ∃ text' s, main b rnd ex sort pow S o w text = (text', .ok 0) ∧ Wrote text text' o.patternFile s ∧ Image S.pattern r c f s := by
  obtain ⟨l, e, hi⟩ := generate_image S.pattern hA hr
  have : patternText b rnd ex sort pow S o w = .ok l := by
    simp only [patternText, hR, bind_ok', ht, if_true, e]
  obtain ⟨text', h1, h2⟩ := main_wrote text this hw
  exact ⟨text', _, h1, h2, hi⟩

/-- C128: whatever the options, only the named file changes, and none if the program does not exit with 0. -/
theorem C128_other_files :
    (∀ q, q ≠ o.patternFile → (main b rnd ex sort pow S o w text).1 q = text q) ∧
    ((main b rnd ex sort pow S o w text).2 ≠ .ok 0 → (main b rnd ex sort pow S o w text).1 = text) := by
  unfold main
  split
  · exact ⟨fun _ _ => rfl, fun _ => rfl⟩
  · exact ⟨fun _ _ => rfl, fun _ => rfl⟩
  · split
    · exact ⟨fun q hq => by simp [hq], fun h => absurd rfl h⟩
    · exact ⟨fun _ _ => rfl, fun _ => rfl⟩

/-- C128: a matrix that cannot be read, an unknown type of pattern, and a maximal block size that is less than twice the minimal one are
reported: the program exits with 1 and no file changes. -/
theorem C128_reports (h : (∃ m, Files.ofFile w o.matrixFile = .error (.throw m)) ∨
      (∃ A, Files.ofFile w o.matrixFile = .ok A) ∧ (o.patternType ≠ "elements" ∧ o.patternType ≠ "type-blocks" ∨
        o.patternType = "type-blocks" ∧ S.maxBlock < 2 * S.minBlock)) :
    main b rnd ex sort pow S o w text = (text, .ok 1) := by
  have : ∃ m, patternText b rnd ex sort pow S o w = .error (.throw m) := by
    rcases h with ⟨m, h⟩ | ⟨⟨A, h⟩, ⟨h1, h2⟩ | ⟨h1, h2⟩⟩
    · exact ⟨m, by simp only [patternText, h, bind_error']⟩
    · refine ⟨"Unkown pattern_type: " ++ o.patternType, ?_⟩
      simp only [patternText, h, bind_ok', if_neg h1, if_neg h2]
    · have h3 : o.patternType ≠ "elements" := by rw [h1]; decide
      refine ⟨"BlockSizeGenerator: max_block_size must be at least twice as large as min_block_size.", ?_⟩
      simp only [patternText, h, bind_ok', if_neg h3, if_pos h1, typePicture, BlockSizeGenerator.mk?, if_pos h2, bind_error']
  obtain ⟨m, e⟩ := this
  rw [main, e]

/-- C128, negative: a file that cannot be opened for writing is not reported: the program exits with 0 or 1 as if it could be opened, and writes nothing. -/
theorem C128_unwritable_is_silent (hw : w.writable o.patternFile = false) :
    (main b rnd ex sort pow S o w text).1 = text ∧
    (main b rnd ex sort pow S o w text).2 = (main b rnd ex sort pow S o { w with writable := fun _ => true } text).2 := by
  have : patternText b rnd ex sort pow S o { w with writable := fun _ => true } = patternText b rnd ex sort pow S o w := rfl
  unfold main
  rw [this]
  cases patternText b rnd ex sort pow S o w with
  | error e => cases e <;> exact ⟨rfl, rfl⟩
  | ok l => simp [hw]

end main

/-! ### Type blocks -/

theorem ofFile_col {w : Files.Disk R} {p : String} {A : Dense R} (h : Files.ofFile w p = .ok A) : A.ori = .col := by
  unfold Files.ofFile at h
  split at h
  · cases h
  · cases h
  · rename_i s name _
    generalize hx : FileIO.readWindow s (w.bin name) (Dense.empty .col) = x at h
    obtain ⟨B, r⟩ := x
    cases r with
    | error e => cases h
    | ok u =>
      cases h
      unfold FileIO.readWindow at hx
      simp only at hx
      split at hx
      · cases hx <;> rfl
      · split at hx
        · cases hx <;> rfl
        · split at hx
          · cases hx <;> rfl
          · split at hx
            · cases hx <;> rfl
            · cases hx <;> rfl

/-- Specification: `n` is the position in the list of types of the first type whose two occupation conditions the matrix meets. -/
def TypeNumber [LinearOrder R] [Neg R] [NatCast R] [Div R] (t : BB.Settings R) (r c : Nat) (f : Nat → Nat → R) (n : Nat) : Prop :=
  ∃ k, [Kind.zero, .sparseF, .denseF, .sparseD, .multSS, .multSD, .denseD][n]? = some k ∧ Fulfils t r c f k ∧
    ∀ m k', m < n → [Kind.zero, .sparseF, .denseF, .sparseD, .multSS, .multSD, .denseD][m]? = some k' → ¬ Fulfils t r c f k'

theorem generateWith_dim {α : Type} {conv : Src R → Res α} {A : Dense R} {rs cs : List Nat} {B : Blocks α} (h : Blocks.generateWith conv A rs cs = .ok B) :
    B.grid.dim = Dim.mk' rs.length cs.length := by
  unfold Blocks.generateWith at h
  simp only [] at h
  obtain ⟨⟨_, d⟩, -, h⟩ := Cache.bind_eq_ok h
  cases h
  rfl

theorem typedBlocks_sat [Field R] [LinearOrder R] [IsStrictOrderedRing R] (b : Build) (rnd : R → R) (hrnd : rnd 0 = 0) (t : BB.Settings R)
    (A : Dense R) (f : Nat → Nat → R) (rs cs : List Nat) (hA : A.Is rs.sum cs.sum f) (ho : A.ori = .col) (hp : Partition rs cs)
    (hD : 0 ≤ t.sigDouble) (hDF : t.sigDouble < t.sigSingle) (h1 : 1 ≤ t.denseDDouble) (h2 : 1 ≤ t.denseDSingle) :
    ∃ B g, typedBlocks b rnd t A rs cs = .ok B ∧ B.grid.ori = .col ∧ B.grid.Is rs.length cs.length g ∧
      ∀ i j, i < rs.length → j < cs.length →
        convertMatrix b rnd t (.sub A (rs.getD i 0) (cs.getD j 0) (offs rs i) (offs cs j)) = .ok ((g i j).ty, (g i j).val) := by
  obtain ⟨B, e, -, -, hB⟩ := Blocks.generate_gen (conv := fun s => do
      let k ← convertMatrix b rnd t s
      return (⟨k.1, k.2⟩ : Dispatch.Obj Kind (Mat R))) (A := A) (rs := rs) (cs := cs)
    (In := fun i j X => convertMatrix b rnd t (.sub A (rs.getD i 0) (cs.getD j 0) (offs rs i) (offs cs j)) = .ok (X.ty, X.val)) (by
      intro i j hi hj
      obtain ⟨pre, k, post, M, -, e, -⟩ := C37_first_match b rnd hrnd t A _ _ _ _ _ _ _ (block_is hA ho hp hi hj) hD hDF h1 h2
      refine Sat.of_eq (a := (⟨k, M⟩ : Dispatch.Obj Kind (Mat R))) ?_ e
      rw [e]; rfl)
  have hd := generateWith_dim e
  have : ∀ i j, ∃ X : Dispatch.Obj Kind (Mat R), i < rs.length → j < cs.length → B.grid.get i j = .ok X ∧
      convertMatrix b rnd t (.sub A (rs.getD i 0) (cs.getD j 0) (offs rs i) (offs cs j)) = .ok (X.ty, X.val) := by
    intro i j
    by_cases h : i < rs.length ∧ j < cs.length
    · obtain ⟨X, h1, h2⟩ := hB.blocks i j h.1 h.2
      exact ⟨X, fun _ _ => ⟨h1, h2⟩⟩
    · exact ⟨⟨.zero, .one (.zero (Dim.mk' 0 0))⟩, fun h1 h2 => absurd ⟨h1, h2⟩ h⟩
  choose g hg using this
  exact ⟨B, g, e, hB.ori, ⟨hB.rows, hB.cols, by rw [hd]; rfl, hB.alloc, fun i j hi hj => (hg i j hi hj).1⟩, fun i j hi hj => (hg i j hi hj).2⟩

section blocks

variable [Field R] [LinearOrder R] [IsStrictOrderedRing R] (b : Build) (rnd ex : R → R) (sort : List R → List Nat) (pow : Nat → R) (S : Settings R)
  (o : Options) (w : Files.Disk R) (text : String → Option String)

/-- The type and dimension matrices of the blocks. -/
theorem types_dims (hrnd : rnd 0 = 0) (t : BB.Settings R)
    (A : Dense R) (f : Nat → Nat → R) (rs cs : List Nat) (hA : A.Is rs.sum cs.sum f) (ho : A.ori = .col) (hp : Partition rs cs)
    (hD : 0 ≤ t.sigDouble) (hDF : t.sigDouble < t.sigSingle) (h1 : 1 ≤ t.denseDDouble) (h2 : 1 ≤ t.denseDSingle) :
    ∃ (B : Blocks (Dispatch.Obj Kind (Mat R))) (T : Dense Nat) (D : Dense (Nat × Nat)) (n : Nat → Nat → Nat), typedBlocks b rnd t A rs cs = .ok B ∧
      Info.typeMatrix typeList B.grid = .ok T ∧ Info.dimMatrix b typeList (fun _ (M : Mat R) => (M.rows, M.cols)) B.grid = .ok D ∧
      T.ori = .col ∧ D.ori = .col ∧ T.Is rs.length cs.length n ∧ D.Is rs.length cs.length (fun i j => (rs.getD i 0, cs.getD j 0)) ∧
      ∀ i j, i < rs.length → j < cs.length →
        TypeNumber t (rs.getD i 0) (cs.getD j 0) (fun a b => f (offs rs i + a) (offs cs j + b)) (n i j) := by
  obtain ⟨B, g, eB, hBo, hB, hg⟩ := typedBlocks_sat b rnd hrnd t A f rs cs hA ho hp hD hDF h1 h2
  obtain ⟨⟨T, n, eT, hT, hn⟩, D, eD, hDm⟩ := Info.C75_generated b rnd hrnd t A f rs cs (fun i j hi hj => block_is hA ho hp hi hj) hD hDF h1 h2 hB hBo hg
  have ori : ∀ {α β : Type} {F : α → Res β} {G : Dense α} {D : Dense β}, Info.mapGrid F G = .ok D → D.ori = .col := by
    intro α β F G D h
    unfold Info.mapGrid at h
    simp only [] at h
    obtain ⟨⟨_, d⟩, -, h⟩ := Cache.bind_eq_ok h
    cases h
    rfl
  exact ⟨B, T, D, n, eB, eT, eD, ori eT, ori eD, hT, hDm, hn⟩

/-- C128, type "type-blocks": if the block sizes `rs`, `cs` that the block size generator returns partition the matrix and the border fits the blocks,
the program exits with 0 and the file holds the image of the matrix of the types of the blocks: `pow n` in block (i,j), where `n` is the position
of its type in the list of types, except in the border, which is 0.  (Missing: block sizes that are not found, `C128_small_is_ub`, wide
borders, `C128_wide_border_fails`, and files that cannot be written, `C128_unwritable_is_silent`.) -/
theorem C128_type_blocks_partial (hrnd : rnd 0 = 0) {A : Dense R} {f : Nat → Nat → R} {rs cs : List Nat} (hR : Files.ofFile w o.matrixFile = .ok A)
    (hA : A.Is rs.sum cs.sum f) (hlim : 2 * S.minBlock ≤ S.maxBlock) (hbs : blockSizes ex sort S.minBlock S.maxBlock A = .ok (rs, cs)) (hp : Partition rs cs)
    (hfit : ∀ m n, m ∈ rs → n ∈ cs → Info.BorderFits o.borderWidth m n)
    (hD : 0 ≤ S.threshold.sigDouble) (hDF : S.threshold.sigDouble < S.threshold.sigSingle) (h1 : 1 ≤ S.threshold.denseDDouble) (h2 : 1 ≤ S.threshold.denseDSingle)
    (ht : o.patternType = "type-blocks") (hw : w.writable o.patternFile = true) :
    ∃ text' s, ∃ (n : Nat → Nat → Nat) (g : Nat → Nat → R), main b rnd ex sort pow S o w text = (text', .ok 0) ∧ Wrote text text' o.patternFile s ∧
      Image S.pattern rs.sum cs.sum g s ∧
      (∀ i j, i < rs.length → j < cs.length →
        TypeNumber S.threshold (rs.getD i 0) (cs.getD j 0) (fun a b => f (offs rs i + a) (offs cs j + b)) (n i j)) ∧
      ∀ i j a b, i < rs.length → j < cs.length → a < rs.getD i 0 → b < cs.getD j 0 →
        g (offs rs i + a) (offs cs j + b) = if a < o.borderWidth ∨ b < o.borderWidth then 0 else pow (n i j) := by
  obtain ⟨B, T, D, n, eB, eT, eD, oT, oD, hT, hDm, hn⟩ := types_dims b rnd hrnd S.threshold A f rs cs hA (ofFile_col hR) hp hD hDF h1 h2
  have hs := hp.rowsFit
  obtain ⟨P, g, eP, hP, hg⟩ := Info.C76_picture_partial pow o.borderWidth hT oT hDm oD (fun i hi => hp.rowPos _ (getD_mem hi))
    (fun j hj => ⟨hp.colPos _ (getD_mem hj), hp.colsFit _ (getD_mem hj)⟩) (by omega) (fun i j hi hj => hfit _ _ (getD_mem hi) (getD_mem hj))
  obtain ⟨l, el, hl⟩ := generate_image S.pattern hP (by omega)
  have em : BlockSizeGenerator.mk? S.minBlock S.maxBlock = .ok (S.minBlock, S.maxBlock) := by simp [BlockSizeGenerator.mk?]; omega
  have ht' : o.patternType ≠ "elements" := by rw [ht]; decide
  have : patternText b rnd ex sort pow S o w = .ok l := by
    simp only [patternText, hR, bind_ok', if_neg ht', if_pos ht, typePicture, em, hbs, eB, eT, eD, hA.rows, hA.cols, eP, el]
  obtain ⟨text', e, hW⟩ := main_wrote text this hw
  exact ⟨text', _, n, g, e, hW, hl, hn, hg⟩

/-- C128: with a minimal block size of at most 1 and a border of at most 1 the picture is written for every non-empty matrix. -/
theorem C128_min_one_partial (hrnd : rnd 0 = 0) (hsort : ∀ l, IsSortDesc l (sort l)) {A : Dense R} {r c : Nat} {f : Nat → Nat → R}
    (hR : Files.ofFile w o.matrixFile = .ok A) (hA : A.Is r c f) (hr : 0 < r) (hc : 0 < c) (hr64 : r + 1 < 2 ^ 64) (hc31 : c < 2 ^ 31)
    (hmn : S.minBlock ≤ 1) (hlim : 2 * S.minBlock ≤ S.maxBlock) (hb : o.borderWidth ≤ 1)
    (hD : 0 ≤ S.threshold.sigDouble) (hDF : S.threshold.sigDouble < S.threshold.sigSingle) (h1 : 1 ≤ S.threshold.denseDDouble) (h2 : 1 ≤ S.threshold.denseDSingle)
    (ht : o.patternType = "type-blocks") (hw : w.writable o.patternFile = true) :
    ∃ (rs cs : List Nat) (text' : String → Option String) (s : String) (n : Nat → Nat → Nat) (g : Nat → Nat → R), rs.sum = r ∧ cs.sum = c ∧
      main b rnd ex sort pow S o w text = (text', .ok 0) ∧ Wrote text text' o.patternFile s ∧ Image S.pattern r c g s ∧
      (∀ i j, i < rs.length → j < cs.length →
        TypeNumber S.threshold (rs.getD i 0) (cs.getD j 0) (fun a b => f (offs rs i + a) (offs cs j + b)) (n i j)) ∧
      ∀ i j a b, i < rs.length → j < cs.length → a < rs.getD i 0 → b < cs.getD j 0 →
        g (offs rs i + a) (offs cs j + b) = if a < o.borderWidth ∨ b < o.borderWidth then 0 else pow (n i j) := by
  obtain ⟨rs, cs, e, rfl, rfl, p1, p2⟩ := C39_matrix_partial ex sort hsort S.minBlock S.maxBlock hmn A r c f hA hr hc
  have le : ∀ (l : List Nat) x, x ∈ l → x ≤ l.sum := fun l x hx => List.single_le_sum (by simp) _ hx
  have hp : Partition rs cs := ⟨p1, p2, hr64, fun x hx => lt_of_le_of_lt (le _ _ hx) hc31⟩
  obtain ⟨text', s, n, g, h⟩ := C128_type_blocks_partial b rnd ex sort pow S o w text hrnd hR hA hlim e hp
    (fun m n hm hn => by have := p1 m hm; have := p2 n hn; unfold Info.BorderFits; omega) hD hDF h1 h2 ht hw
  exact ⟨rs, cs, text', s, n, g, rfl, rfl, h⟩

/-- C128: a non-empty matrix with at most `max_block_size` rows and columns is shown as one block, with whatever border fits it. -/
theorem C128_one_block_partial (hrnd : rnd 0 = 0) {A : Dense R} {r c : Nat} {f : Nat → Nat → R}
    (hR : Files.ofFile w o.matrixFile = .ok A) (hA : A.Is r c f) (hr : 0 < r) (hc : 0 < c) (hr64 : r + 1 < 2 ^ 64) (hc31 : c < 2 ^ 31)
    (hlim : 2 * S.minBlock ≤ S.maxBlock) (hr1 : r ≤ S.maxBlock) (hc1 : c ≤ S.maxBlock) (hb : Info.BorderFits o.borderWidth r c)
    (hD : 0 ≤ S.threshold.sigDouble) (hDF : S.threshold.sigDouble < S.threshold.sigSingle) (h1 : 1 ≤ S.threshold.denseDDouble) (h2 : 1 ≤ S.threshold.denseDSingle)
    (ht : o.patternType = "type-blocks") (hw : w.writable o.patternFile = true) :
    ∃ (text' : String → Option String) (s : String) (n : Nat),
      main b rnd ex sort pow S o w text = (text', .ok 0) ∧ Wrote text text' o.patternFile s ∧ TypeNumber S.threshold r c f n ∧
      Image S.pattern r c (fun i j => if i < o.borderWidth ∨ j < o.borderWidth then 0 else pow n) s := by
  have e : blockSizes ex sort S.minBlock S.maxBlock A = .ok ([r], [c]) := by
    unfold blockSizes
    rw [hA.rows, hA.cols, if_pos ⟨hr1, hc1⟩]
    rfl
  have hp : Partition [r] [c] := ⟨by simpa using hr, by simpa using hc, by simpa using hr64, by simpa using hc31⟩
  obtain ⟨text', s, n, g, e1, e2, ⟨px, e3, e5⟩, e4, e6⟩ := C128_type_blocks_partial b rnd ex sort pow S o w text hrnd (rs := [r]) (cs := [c]) hR (by simpa using hA) hlim e hp
    (by simpa using hb) hD hDF h1 h2 ht hw
  have h00 := e4 0 0 (by simp) (by simp)
  refine ⟨text', s, n 0 0, e1, e2, by simpa [offs] using h00, px, fun i j hi hj => ?_, by simpa using e5⟩
  have h3 := e3 i j (by simpa using hi) (by simpa using hj)
  have h6 := e6 0 0 i j (by simp) (by simp) (by simpa using hi) (by simpa using hj)
  simp only [offs, List.take_zero, List.sum_nil, Nat.zero_add] at h6
  rwa [h6] at h3

/-- C128, negative: the block size generator reads uninitialised variables, and the behaviour of the program is undefined, for every matrix larger than the
maximal block size in one dimension with at least 2 and less than twice the minimal block size elements in one dimension: with the default
limits, for example, every matrix with more than 1000 rows and 2 to 399 columns. -/
theorem C128_small_is_ub (hsort : ∀ l, IsSortDesc l (sort l)) {A : Dense R} {r c : Nat} {f : Nat → Nat → R}
    (hR : Files.ofFile w o.matrixFile = .ok A) (hA : A.Is r c f) (hr : 0 < r) (hc : 0 < c) (hlim : 2 * S.minBlock ≤ S.maxBlock)
    (hbig : S.maxBlock < r ∨ S.maxBlock < c) (hsmall : 2 ≤ r ∧ r < 2 * S.minBlock ∨ 2 ≤ c ∧ c < 2 * S.minBlock) (ht : o.patternType = "type-blocks") :
    main b rnd ex sort pow S o w text = (text, .error .ub) := by
  obtain ⟨rd, cd, e, l1, l2⟩ := detection_lengths ex A r c f hA hr hc
  have em : BlockSizeGenerator.mk? S.minBlock S.maxBlock = .ok (S.minBlock, S.maxBlock) := by simp [BlockSizeGenerator.mk?]; omega
  have ht' : o.patternType ≠ "elements" := by rw [ht]; decide
  have hbs : blockSizes ex sort S.minBlock S.maxBlock A = .error .ub := by
    unfold blockSizes
    rw [hA.rows, hA.cols, if_neg (by omega), e, bind_ok']
    have one : ∀ d : List R, (∃ l, getBlockSize S.minBlock S.maxBlock d (sort d) = .ok l) ∨ getBlockSize S.minBlock S.maxBlock d (sort d) = .error .ub := by
      intro d
      rcases C39_outcomes S.minBlock S.maxBlock d (sort d) (hsort d) with ⟨l, -, h, -⟩ | ⟨h, -⟩
      · exact .inl ⟨l, h⟩
      · exact .inr h
    rcases hsmall with ⟨s1, s2⟩ | ⟨s1, s2⟩
    · simp only [C39_small_dimension_is_ub S.minBlock S.maxBlock rd (sort rd) (hsort rd) (by omega) (by omega), bind_error']
    · have h2 := C39_small_dimension_is_ub S.minBlock S.maxBlock cd (sort cd) (hsort cd) (by omega) (by omega)
      rcases one rd with ⟨l, h⟩ | h
      · simp only [h, h2, bind_ok', bind_error']
      · simp only [h, bind_error']
  have : patternText b rnd ex sort pow S o w = .error .ub := by
    simp only [patternText, hR, bind_ok', if_neg ht', if_pos ht, typePicture, em, hbs, bind_error']
  rw [main, this]

/-- C128, negative: if the border does not fit one of the blocks the program does not exit with 0, and nothing is written. -/
theorem C128_wide_border_fails (hrnd : rnd 0 = 0) {A : Dense R} {f : Nat → Nat → R} {rs cs : List Nat} (hR : Files.ofFile w o.matrixFile = .ok A)
    (hA : A.Is rs.sum cs.sum f) (hlim : 2 * S.minBlock ≤ S.maxBlock) (hbs : blockSizes ex sort S.minBlock S.maxBlock A = .ok (rs, cs)) (hp : Partition rs cs)
    (hwide : ∃ m n, m ∈ rs ∧ n ∈ cs ∧ ¬ Info.BorderFits o.borderWidth m n)
    (hD : 0 ≤ S.threshold.sigDouble) (hDF : S.threshold.sigDouble < S.threshold.sigSingle) (h1 : 1 ≤ S.threshold.denseDDouble) (h2 : 1 ≤ S.threshold.denseDSingle)
    (ht : o.patternType = "type-blocks") : (main b rnd ex sort pow S o w text).1 = text ∧ (main b rnd ex sort pow S o w text).2 ≠ .ok 0 := by
  obtain ⟨B, T, D, n, eB, eT, eD, oT, oD, hT, hDm, -⟩ := types_dims b rnd hrnd S.threshold A f rs cs hA (ofFile_col hR) hp hD hDF h1 h2
  obtain ⟨m, k, hm, hk, hw⟩ := hwide
  obtain ⟨i, hi, rfl⟩ := List.mem_iff_getElem.1 hm
  obtain ⟨j, hj, rfl⟩ := List.mem_iff_getElem.1 hk
  have hf := Info.C76_wide_border_fails pow o.borderWidth hT oT hDm oD rs.sum cs.sum ⟨i, j, hi, hj, by simpa [hi, hj] using hw⟩
  have em : BlockSizeGenerator.mk? S.minBlock S.maxBlock = .ok (S.minBlock, S.maxBlock) := by simp [BlockSizeGenerator.mk?]; omega
  have ht' : o.patternType ≠ "elements" := by rw [ht]; decide
  have : ∃ e, patternText b rnd ex sort pow S o w = .error e := by
    simp only [patternText, hR, bind_ok', if_neg ht', if_pos ht, typePicture, em, hbs, eB, eT, eD, hA.rows, hA.cols]
    generalize hx : Info.picture pow o.borderWidth rs.sum cs.sum T D = x at hf ⊢
    cases x with
    | error e => exact ⟨e, rfl⟩
    | ok P => exact absurd rfl (hf P)
  obtain ⟨e, he⟩ := this
  rw [main, he]
  cases e <;> exact ⟨rfl, by simp⟩

end blocks

/-- Two colours: "a" for absolute values from 1 on, "b" from 1/1000 on. -/
def exColours : PatternSettings ℚ := ⟨[⟨"a", "FF0000", 1⟩, ⟨"b", "00FF00", 1/1000⟩], " ", "FFFFFF"⟩

/-- A 2 × 3 matrix in a file. -/
def exDisk : Files.Disk ℚ :=
  ⟨fun p => if p = "m.xml" then some (some (⟨2, 3, 2, 3, 0, 0⟩, "m.bin")) else none, fun _ => some [7, 0, 0, 0, 1/5, 0], fun _ => true⟩

/-- Element by element. -/
example : (main .debug id id sortIdx (fun t => (1 : ℚ) / 10 ^ t) ⟨exColours, 1, 2, BB.Settings.default (1/2) (1/10)⟩ ⟨"m.xml", "p.xpm", "elements", 0⟩ exDisk
    (fun _ => none)).1 "p.xpm" =
    some "/* XPM */\nstatic char * matrix_xpm[] = {\n\"3 2 3 1\",\n\"a\tc #FF0000\",\n\"b\tc #00FF00\",\n\" \tc #FFFFFF\",\n/* Data section */\n\"a b\",\n\"   \"};\n" := by
  decide +kernel

/-- Type blocks: element (0,0) is 7 (type 6, dense double), the rest of the first row has type 1, 2 or 3, the second row is zero (type 0). -/
example : (main .debug id id sortIdx (fun t => (1 : ℚ) / 10 ^ t) ⟨exColours, 1, 2, BB.Settings.default (1/2) (1/10)⟩ ⟨"m.xml", "p.xpm", "type-blocks", 0⟩ exDisk
    (fun _ => none)).1 "p.xpm" =
    some "/* XPM */\nstatic char * matrix_xpm[] = {\n\"3 2 3 1\",\n\"a\tc #FF0000\",\n\"b\tc #00FF00\",\n\" \tc #FFFFFF\",\n/* Data section */\n\" bb\",\n\"aaa\"};\n" := by
  decide +kernel

theorem exDisk_reads : ∃ A, Files.ofFile exDisk "m.xml" = .ok A ∧ A.Is 2 3 (fun i j => [7, 0, 0, 0, 1/5, 0].getD (j * 2 + i) 0) := by
  have h := Files.C127_read_back (w := exDisk) (w' := exDisk) (p := "m.bin") (r := 2) (c := 3) (f := fun i j => [7, 0, 0, 0, 1/5, 0].getD (j * 2 + i) 0)
    ⟨rfl, rfl, fun _ _ => rfl, _, rfl, rfl, ?_⟩ "m.xml" ⟨2, 3, 2, 3, 0, 0⟩ rfl rfl rfl (by decide) (by decide)
  · simpa using h
  · intro i j hi hj
    have : i = 0 ∨ i = 1 := by omega
    have : j = 0 ∨ j = 1 ∨ j = 2 := by omega
    rcases ‹i = 0 ∨ i = 1› with rfl | rfl <;> rcases ‹j = 0 ∨ j = 1 ∨ j = 2› with rfl | rfl | rfl <;> rfl

/-- The hypotheses of `C128_min_one_partial` are met. -/
example : ∃ rs cs : List Nat, rs.sum = 2 ∧ cs.sum = 3 ∧
    (main .debug id id sortIdx (fun t => (1 : ℚ) / 10 ^ t) ⟨exColours, 1, 2, BB.Settings.default (1/2) (1/10)⟩ ⟨"m.xml", "p.xpm", "type-blocks", 1⟩ exDisk (fun _ => none)).2 = .ok 0 := by
  obtain ⟨A, e, h⟩ := exDisk_reads
  obtain ⟨rs, cs, text', s, n, g, h1, h2, h3, -⟩ := C128_min_one_partial .debug id id sortIdx (fun t => (1 : ℚ) / 10 ^ t) ⟨exColours, 1, 2, BB.Settings.default (1/2) (1/10)⟩
    ⟨"m.xml", "p.xpm", "type-blocks", 1⟩ exDisk (fun _ => none) rfl sortIdx_spec e h (by decide) (by decide) (by decide) (by decide) (by decide) (by decide) (by decide)
    (by norm_num [BB.Settings.default]) (by norm_num [BB.Settings.default]) (by norm_num [BB.Settings.default]) (by norm_num [BB.Settings.default]) rfl rfl
  exact ⟨rs, cs, h1, h2, by rw [h3]⟩

/-- The defaults the help text states (show_pattern.cpp:48-50), and those of the two settings records. -/
example : (Options.default "m.xml").matrixFile = "m.xml" ∧ (Options.default "m.xml").patternFile = "pattern.xpm" ∧
    (Options.default "m.xml").patternType = "elements" ∧ (Options.default "m.xml").borderWidth = 0 := ⟨rfl, rfl, rfl, rfl⟩

end BB.Show
