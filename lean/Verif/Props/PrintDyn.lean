import Verif.Model.PrintDyn
import Verif.Props.Print
import Verif.Props.Typed
import Verif.Lemmas.StorageLeak

/-! C111: printing of dynamic matrices. -/

namespace BB.Print

variable {F D : Type}

/-- Text of a zero matrix. -/
def zeroText (r c : Nat) : List Char :=
  "Matrix<Zero>".toList ++ "\nSize = ".toList ++ digits (r * c) ++ "\nDimension = ".toList ++ digits r ++ " x ".toList ++ digits c ++ ['\n']

/-- How numbers are written: scientific notation or not, number of digits; and whether headlines are asked for. -/
structure Style where
  sci : Bool
  prec : Nat
  full : Bool
deriving DecidableEq

/-- The style a stream is in. -/
def Stream.style (s : Stream) : Style := ⟨s.sci, s.prec, s.full⟩

/-- The style a dense matrix of at most 100 rows and columns leaves. -/
def Style.dense (y : Style) : Style := { y with sci := true, prec := 10 }

/-- `SingleShown FF FD y A t y'`: `t` is the text that shows the matrix in style `y` and `y'` the style the next one is
shown in.  Of a dense matrix the text has the lines, always in scientific notation with ten digits, of a sparse matrix
its arrays, of a zero matrix its dimensions. -/
inductive SingleShown (FF : Format F) (FD : Format D) (y : Style) : TSMat F D → List Char → Style → Prop
  | denseF {A : Dense F} {r c : Nat} {f : Nat → Nat → F} (h : A.Is r c f) (hr : r ≤ 100) (hc : c ≤ 100) :
    SingleShown FF FD y (.denseF A) ((if y.full then headline "Matrix<Dense,float>".toList r c else []) ++ block FF r c f) y.dense
  | denseD {A : Dense D} {r c : Nat} {f : Nat → Nat → D} (h : A.Is r c f) (hr : r ≤ 100) (hc : c ≤ 100) :
    SingleShown FF FD y (.denseD A) ((if y.full then headline "Matrix<Dense,double>".toList r c else []) ++ block FD r c f) y.dense
  | sparseF {S : Sparse F} {r c : Nat} {L : List (List (Nat × F))} (h : S.Valid r c L) (ht : S.Tight) (hs : r * c ≤ 100) :
    SingleShown FF FD y (.sparseF S) (sparseText (FF.str y.sci y.prec) "Matrix<Sparse,float>".toList r c L) y
  | sparseD {S : Sparse D} {r c : Nat} {L : List (List (Nat × D))} (h : S.Valid r c L) (ht : S.Tight) (hs : r * c ≤ 100) :
    SingleShown FF FD y (.sparseD S) (sparseText (FD.str y.sci y.prec) "Matrix<Sparse,double>".toList r c L) y
  | zero (r c : Nat) : SingleShown FF FD y (.zero (Dim.mk' r c)) (zeroText r c) y

/-- The same for a dynamic matrix: a null pointer, a matrix, or a matrix of two parts, shown one after the other. -/
inductive Shown (FF : Format F) (FD : Format D) (y : Style) : Option (TMat F D) → List Char → Style → Prop
  | null : Shown FF FD y none "No Matrix found.".toList y
  | one {A : TSMat F D} {t : List Char} {y' : Style} (h : SingleShown FF FD y A t y') : Shown FF FD y (some (.one A)) t y'
  | two {X1 X2 : TSMat F D} {t1 t2 : List Char} {y1 y2 : Style} (h1 : SingleShown FF FD y X1 t1 y1) (h2 : SingleShown FF FD y1 X2 t2 y2) :
    Shown FF FD y (some (.two X1 X2)) (t1 ++ t2) y2

/-- The texts of several matrices one after the other. -/
inductive AllShown (FF : Format F) (FD : Format D) : Style → List (Option (TMat F D)) → List Char → Style → Prop
  | nil (y : Style) : AllShown FF FD y [] [] y
  | cons {y y' y'' : Style} {A : Option (TMat F D)} {l : List (Option (TMat F D))} {t u : List Char}
      (h : Shown FF FD y A t y') (hl : AllShown FF FD y' l u y'') : AllShown FF FD y (A :: l) (t ++ u) y''

theorem is_view {R : Type} {A : Dense R} {r c : Nat} {f : Nat → Nat → R} (h : A.Is r c f) :
    A.view.rows = r ∧ A.view.cols = c ∧ A.view.Fits A.data.length ∧ A.view.Reads A.data f := by
  refine ⟨h.rows, h.cols, h.fits, fun i j hi hj => ?_⟩
  exact h.elems i j (by have := h.rows; exact lt_of_lt_of_eq hi this) (by have := h.cols; exact lt_of_lt_of_eq hj this)

theorem single_sat (FF : Format F) (FD : Format D) (s : Stream) {A : TSMat F D} {t : List Char} {y : Style}
    (h : SingleShown FF FD s.style A t y) : Sat (single FF FD A s) (fun s' => s'.out = s.out ++ t ∧ s'.style = y) := by
  cases h with
  | denseF h hr hc =>
    obtain ⟨v1, v2, v3, v4⟩ := is_view h
    obtain ⟨s', e, a1, a2, a3, a4⟩ := (dense_sat FF "Matrix<Dense,float>".toList _ _ _ v3 v4 s).1 (by rw [v1]; exact hr) (by rw [v2]; exact hc)
    refine ⟨s', e, ?_, ?_⟩
    · rw [a4, v1, v2, List.append_assoc]; rfl
    · simp only [Stream.style, Style.dense, a1, a2, a3]
  | denseD h hr hc =>
    obtain ⟨v1, v2, v3, v4⟩ := is_view h
    obtain ⟨s', e, a1, a2, a3, a4⟩ := (dense_sat FD "Matrix<Dense,double>".toList _ _ _ v3 v4 s).1 (by rw [v1]; exact hr) (by rw [v2]; exact hc)
    refine ⟨s', e, ?_, ?_⟩
    · rw [a4, v1, v2, List.append_assoc]; rfl
    · simp only [Stream.style, Style.dense, a1, a2, a3]
  | sparseF h ht hs => exact ⟨_, C78_sparse_partial FF.str _ h ht hs s, rfl, rfl⟩
  | sparseD h ht hs => exact ⟨_, C78_sparse_partial FD.str _ h ht hs s, rfl, rfl⟩
  | zero r c => exact ⟨_, rfl, rfl, rfl⟩

theorem dynamic_sat (FF : Format F) (FD : Format D) (s : Stream) {A : Option (TMat F D)} {t : List Char} {y : Style}
    (h : Shown FF FD s.style A t y) : Sat (dynamic FF FD A s) (fun s' => s'.out = s.out ++ t ∧ s'.style = y) := by
  cases h with
  | null => exact ⟨_, rfl, rfl, rfl⟩
  | one h => exact single_sat FF FD s h
  | two h1 h2 =>
    refine Sat.bind (single_sat FF FD s h1) ?_
    rintro s1 ⟨o1, rfl⟩
    refine (single_sat FF FD s1 h2).mono ?_
    rintro s2 ⟨o2, rfl⟩
    exact ⟨by rw [o2, o1, List.append_assoc], rfl⟩

/-- C111: printing any sequence of dynamic matrices to one stream writes their texts one after the other, for null
pointers, dense matrices with at most 100 rows and columns, sparse matrices with at most 100 elements and no spare cells,
zero matrices that know their size, and two-part matrices of such parts. -/
theorem C111_history_partial (FF : Format F) (FD : Format D) (l : List (Option (TMat F D))) (s : Stream) (t : List Char) (y : Style)
    (h : AllShown FF FD s.style l t y) : ∃ s', printAll FF FD l s = .ok s' ∧ s'.out = s.out ++ t ∧ s'.style = y := by
  induction l generalizing s t y with
  | nil => cases h; exact ⟨s, rfl, by simp, rfl⟩
  | cons A l ih =>
    cases h with
    | cons h hl =>
      obtain ⟨s1, e1, o1, rfl⟩ := dynamic_sat FF FD s h
      obtain ⟨s2, e2, o2, rfl⟩ := ih s1 _ _ hl
      exact ⟨s2, by simp only [printAll, e1, bind_ok', e2], by rw [o2, o1, List.append_assoc], rfl⟩

/-- C111 for zero matrices: one constructed with its dimensions is printed with them and the number of its elements … -/
theorem C111_zero (FF : Format F) (FD : Format D) (r c : Nat) (s : Stream) :
    dynamic FF FD (some (.one (.zero (Dim.mk' r c)))) s = .ok (s.text (zeroText r c)) := rfl

/-- … but C111 is false for a zero matrix that is the result of a product: it is printed with "Size = 0". -/
theorem C111_zero_product_has_size_0 [Zero F] [Add F] [Mul F] [DecidableEq F] [Zero D] [Add D] [Mul D] [DecidableEq D] (FF : Format F) (FD : Format D)
    (up : F → D) (A B : TSMat F D) (hA : A.stored = none ∨ B.stored = none) (C : TSMat F D) (h : TSMat.mul up A B = .ok C) (s : Stream) :
    dynamic FF FD (some (.one C)) s = .ok (s.text ("Matrix<Zero>".toList ++ "\nSize = ".toList ++ digits 0 ++ "\nDimension = ".toList ++
      digits A.rows ++ " x ".toList ++ digits B.cols ++ ['\n'])) := by
  have key : ∀ (r k k' c : Nat) (X : SMat F), SMat.mulZero r k k' c = .ok X → X = .zero ⟨r, c, 0⟩ := by
    intro r k k' c X h
    unfold SMat.mulZero at h
    obtain ⟨-, -, h⟩ := Own.bind_eq_ok h
    cases h; rfl
  have keyD : ∀ (r k k' c : Nat) (X : SMat D), SMat.mulZero r k k' c = .ok X → X = .zero ⟨r, c, 0⟩ := by
    intro r k k' c X h
    unfold SMat.mulZero at h
    obtain ⟨-, -, h⟩ := Own.bind_eq_ok h
    cases h; rfl
  have : C = .zero ⟨A.rows, B.cols, 0⟩ := by
    unfold TSMat.mul at h
    cases A <;> cases B <;> simp only [TSMat.stored, reduceCtorEq, or_self, or_false, or_true, false_or] at hA <;>
      simp only [TSMat.asF, TSMat.toD, SMat.mul] at h <;> obtain ⟨X, h1, h2⟩ := Own.bind_eq_ok h <;> cases h2 <;>
      first
        | (rw [key _ _ _ _ _ h1]; rfl)
        | (rw [keyD _ _ _ _ _ h1]; rfl)
  rw [this]
  rfl

/-- The two sizes differ as soon as the product has elements. -/
theorem zero_size_differs {n : Nat} (h : 0 < n) : digits 0 ≠ digits n := by
  intro e
  have := congrArg (fun l => Nat.ofDigitChars 10 l 0) e
  simp only [digits, Nat.ofDigitChars_toDigits (b := 10) (by decide) (by decide)] at this
  omega

/-- C111 is false for larger matrices: the text is only a message.  The style is kept. -/
theorem C111_large_is_not_shown (FF : Format F) (FD : Format D) (s : Stream) :
    (∀ (A : Dense F) (r c : Nat) (f : Nat → Nat → F), A.Is r c f → 100 < r ∨ 100 < c →
      dynamic FF FD (some (.one (.denseF A))) s = .ok (s.text "Matrix too large for printing.\n".toList)) ∧
    (∀ (A : Dense D) (r c : Nat) (f : Nat → Nat → D), A.Is r c f → 100 < r ∨ 100 < c →
      dynamic FF FD (some (.one (.denseD A))) s = .ok (s.text "Matrix too large for printing.\n".toList)) ∧
    (∀ (A : Sparse F) (r c : Nat) (L : List (List (Nat × F))), A.Valid r c L → 100 < r * c →
      dynamic FF FD (some (.one (.sparseF A))) s = .ok (s.text ("SparseMatrix (Size = ".toList ++ digits (r * c) ++ ") too large for printing.\n".toList))) ∧
    (∀ (A : Sparse D) (r c : Nat) (L : List (List (Nat × D))), A.Valid r c L → 100 < r * c →
      dynamic FF FD (some (.one (.sparseD A))) s = .ok (s.text ("SparseMatrix (Size = ".toList ++ digits (r * c) ++ ") too large for printing.\n".toList))) := by
  refine ⟨fun A r c f h hl => ?_, fun A r c f h hl => ?_, fun A r c L h hl => ?_, fun A r c L h hl => ?_⟩
  · obtain ⟨v1, v2, v3, v4⟩ := is_view h
    exact (dense_sat FF _ _ _ _ v3 v4 s).2 (by rw [v1, v2]; exact hl)
  · obtain ⟨v1, v2, v3, v4⟩ := is_view h
    exact (dense_sat FD _ _ _ _ v3 v4 s).2 (by rw [v1, v2]; exact hl)
  · exact C78_large_sparse_is_not_shown FF.str _ h hl s
  · exact C78_large_sparse_is_not_shown FD.str _ h hl s

/-- C111 is false for the blocks products and sums leave, which have spare cells: printing reads them.  For a two-part
matrix it is enough that one part has them. -/
theorem C111_spare_is_ub (FF : Format F) (FD : Format D) (s : Stream) (S : Sparse D) (h100 : S.dim.fullSize ≤ 100) (p : Nat)
    (hp : S.value[p]? = some none) : (∃ e, dynamic FF FD (some (.one (.sparseD S))) s = .error e) ∧
    ∀ X, ∃ e, dynamic FF FD (some (.two (.sparseD S) X)) s = .error e := by
  obtain ⟨e, he⟩ := C78_spare_is_ub FD.str "Matrix<Sparse,double>".toList h100 s p hp
  refine ⟨⟨e, he⟩, fun X => ⟨e, ?_⟩⟩
  show (single FF FD (.sparseD S) s >>= single FF FD X) = _
  rw [show single FF FD (.sparseD S) s = .error e from he]
  rfl

/-- C111 is false for the style: the text of a sparse matrix depends on whether a dense matrix was printed before. -/
theorem C111_order_matters : ∃ (FF FD : Format Nat) (A B : Option (TMat Nat Nat)) (s s1 s2 s3 : Stream),
    printAll FF FD [A] s = .ok s1 ∧ printAll FF FD [B] s = .ok s2 ∧ printAll FF FD [A, B] s = .ok s3 ∧ s.out = [] ∧
    s3.out ≠ s1.out ++ s2.out := by
  refine ⟨Format.number (fun _ _ => digits), Format.number (fun sci _ n => if sci then 'e' :: digits n else digits n),
    some (.one (.denseD (Dense.ofFn .col 1 1 (fun _ _ => 7)))),
    some (.one (.sparseD ⟨.col, Dim.mk' 1 1, [some 5], [some 0], [some 0, some 1]⟩)), ⟨[], false, 6, false⟩, _, _, _, rfl, rfl, rfl, rfl, ?_⟩
  decide +kernel

/-- Non-vacuity: a null pointer, a zero matrix and a two-part matrix printed to one stream. -/
example : ∃ t, AllShown (F := Nat) (D := Nat) (Format.number fun _ _ => digits) (Format.number fun _ _ => digits) ⟨false, 6, false⟩
    [none, some (.one (.zero (Dim.mk' 2 3))), some (.two (.sparseD ⟨.col, Dim.mk' 1 1, [some 5], [some 0], [some 0, some 1]⟩) (.denseF (Dense.ofFn .col 1 1 (fun _ _ => 7))))]
    t ⟨true, 10, false⟩ := by
  have hS : (⟨.col, Dim.mk' 1 1, [some 5], [some 0], [some 0, some 1]⟩ : Sparse Nat).Valid 1 1 [[(0, 5)]] := by
    refine ⟨rfl, rfl, rfl, rfl, rfl, ?_, rfl, ?_, ?_, ?_⟩
    · intro q hq
      have : q = 0 ∨ q = 1 := by simp at hq; omega
      rcases this with rfl | rfl <;> rfl
    · intro p e hp
      have : p = 0 := by
        by_contra h
        rw [List.getElem?_eq_none (by simp; omega)] at hp
        cases hp
      subst this
      cases hp
      exact ⟨rfl, rfl⟩
    · intro run hrun e he
      simp at hrun
      subst hrun
      simp at he
      subst he
      decide
    · intro run hrun
      simp at hrun
      subst hrun
      simp
  exact ⟨_, AllShown.cons (Shown.null (FF := Format.number fun _ _ => digits) (FD := Format.number fun _ _ => digits) (y := ⟨false, 6, false⟩))
    (AllShown.cons (Shown.one (SingleShown.zero 2 3))
    (AllShown.cons (Shown.two (SingleShown.sparseD hS ⟨1, rfl, rfl⟩ (by decide)) (SingleShown.denseF (Dense.ofFn_is .col 1 1 (fun _ _ => 7)) (by decide) (by decide)))
      (AllShown.nil _)))⟩

end BB.Print
