import Verif.Model.Bench
import Verif.Props.External
import Verif.Props.Norm
import Verif.Props.BlockSize

/-! C82: the actions of the benchmark; C83: the table; C84: `matrix_matrix_mult`. -/

namespace BB.Bench

open BB.Blas BB.Ext Finset

variable {R F : Type}

/-! ### C82 -/

/-- The action returns an m×n column-major matrix with the elements `h`. -/
def Computes (a : Action R) (A B : Dense R) (m n : Nat) (h : Nat → Nat → R) : Prop :=
  ∃ D, a.execute A B = .ok D ∧ D.ori = .col ∧ D.Is m n h

/-- The routines meet their contracts (exact arithmetic in both types). -/
structure Routines.Conforms [Semiring R] [Semiring F] (rt : Routines R F) : Prop where
  dgemmOpenBLAS : rt.dgemmOpenBLAS.Conforms
  sgemmOpenBLAS : rt.sgemmOpenBLAS.Conforms
  dgemmMKL : rt.dgemmMKL.Conforms
  sgemmMKL : rt.sgemmMKL.Conforms
  eigenD : rt.eigenD.Conforms id id
  eigenS : rt.eigenS.Conforms id id
  blazeD : rt.blazeD.Conforms id id
  blazeS : rt.blazeS.Conforms id id
  blazeSD : rt.blazeSD.Conforms rt.toD id
  blazeDS : rt.blazeDS.Conforms id rt.toD

theorem repeated_eq {x : Res (Dense R)} {D : Dense R} (h : x = .ok D) {reps : Nat} (hr : 0 < reps) : repeated x reps = .ok D := by
  obtain ⟨n, rfl⟩ : ∃ n, reps = n + 1 := ⟨reps - 1, by omega⟩
  have : ∀ k, loopN k (fun _ (_ : Dense R) => x) (Dense.empty .col) = .ok (if k = 0 then Dense.empty .col else D) := by
    intro k
    induction k with
    | zero => rfl
    | succ k ih =>
      rw [loopN, ih]
      show x = _
      rw [h]
      simp
  unfold repeated
  rw [this]
  simp

/-- C82, native_dense: however often the measurement repeats the call, the result is the product. -/
theorem C82_native [Semiring R] (reps : Nat) (hr : 0 < reps) (A B : Dense R) (m k n : Nat) (f g : Nat → Nat → R)
    (hA : A.Is m k f) (hB : B.Is k n g) (hAo : A.ori = .col) (hBo : B.ori = .col) :
    Computes (native reps) A B m n (fun i j => ∑ l ∈ range k, f i l * g l j) := by
  have key : ∀ t, ∃ D, loopN t (fun _ C => Dense.mulGeneral A B C) (Dense.empty .col) = .ok D ∧ D.ori = .col ∧
      (t ≠ 0 → D.Is m n (fun i j => dotSeq f g k i j)) := by
    intro t
    induction t with
    | zero => exact ⟨_, rfl, rfl, fun h => absurd rfl h⟩
    | succ t ih =>
      obtain ⟨C, e, ho, -⟩ := ih
      obtain ⟨D, e', ho', hD⟩ := Dense.mulGeneral_sat C hA hB hAo hBo ho
      refine ⟨D, ?_, ho', fun _ => hD⟩
      rw [loopN, e]
      exact e'
  obtain ⟨D, e, ho, hD⟩ := key reps
  exact ⟨D, e, ho, (hD (by omega)).congr (fun i j _ _ => dotSeq_eq_sum f g k i j)⟩

theorem gemm_computes [Semiring R] {impl : Gemm R} (hg : impl.Conforms) (name : String) {reps : Nat} (hr : 0 < reps) {A B : Dense R} {m k n : Nat}
    {f g : Nat → Nat → R} (hA : A.Is m k f) (hB : B.Is k n g) (hAo : A.ori = .col) (hBo : B.ori = .col)
    (hm : m < 2 ^ 31) (hk : k < 2 ^ 31) (hn : n < 2 ^ 31) (hne : 0 < k) :
    Computes (gemm name impl reps) A B m n (fun i j => ∑ l ∈ range k, f i l * g l j) := by
  obtain ⟨D, e, ho, hD⟩ := mul_sat hg A B (Dense.empty .col) m k n f g hA hB hAo hBo rfl hm hk hn (.inl hne)
  exact ⟨D, repeated_eq e hr, ho, hD⟩

theorem sgemm_computes [Semiring F] {impl : Gemm F} (hg : impl.Conforms) (toF : R → F) (toD : F → R) (name : String) {reps : Nat} (hr : 0 < reps)
    {A B : Dense R} {m k n : Nat} {f g : Nat → Nat → R} (hA : A.Is m k f) (hB : B.Is k n g)
    (hm : m < 2 ^ 31) (hk : k < 2 ^ 31) (hn : n < 2 ^ 31) (hne : 0 < k) :
    Computes (sgemm name toF toD impl reps) A B m n (fun i j => toD (∑ l ∈ range k, toF (f i l) * toF (g l j))) := by
  obtain ⟨fA, e1, o1, h1⟩ := Dense.convert_sat toF .col hA
  obtain ⟨fB, e2, o2, h2⟩ := Dense.convert_sat toF .col hB
  obtain ⟨C, e3, o3, h3⟩ := mul_sat hg fA fB (Dense.empty .col) m k n _ _ h1 h2 o1 o2 rfl hm hk hn (.inl hne)
  obtain ⟨D, e4, o4, h4⟩ := Dense.convert_sat toD .col h3
  refine ⟨D, ?_, o4, h4⟩
  simp only [sgemm, e1, e2, bind_ok', repeated_eq e3 hr, e4]

theorem eigen_computes [Semiring R] {impl : Prod R R R} (hp : impl.Conforms id id) {reps : Nat} (hr : 0 < reps) {A B : Dense R} {m k n : Nat}
    {f g : Nat → Nat → R} (hA : A.Is m k f) (hB : B.Is k n g) (hAo : A.ori = .col) (hBo : B.ori = .col) :
    Computes (eigen impl reps) A B m n (fun i j => ∑ l ∈ range k, f i l * g l j) := by
  obtain ⟨D, e, ho, hD⟩ := C80_eigen impl hp A B (Dense.empty .col) m k n f g hA hB hAo hBo rfl
  exact ⟨D, repeated_eq e hr, ho, hD⟩

theorem eigenS_computes [Semiring F] {impl : Prod F F F} (hp : impl.Conforms id id) (toF : R → F) (toD : F → R) {reps : Nat} (hr : 0 < reps)
    {A B : Dense R} {m k n : Nat} {f g : Nat → Nat → R} (hA : A.Is m k f) (hB : B.Is k n g) :
    Computes (eigenS toF toD impl reps) A B m n (fun i j => toD (∑ l ∈ range k, toF (f i l) * toF (g l j))) := by
  obtain ⟨fA, e1, o1, h1⟩ := Dense.convert_sat toF .col hA
  obtain ⟨fB, e2, o2, h2⟩ := Dense.convert_sat toF .col hB
  obtain ⟨C, e3, o3, h3⟩ := C80_eigen impl hp fA fB (Dense.empty .col) m k n _ _ h1 h2 o1 o2 rfl
  obtain ⟨D, e4, o4, h4⟩ := Dense.convert_sat toD .col h3
  refine ⟨D, ?_, o4, h4⟩
  simp only [eigenS, e1, e2, bind_ok', repeated_eq e3 hr, e4]

theorem blaze_computes [Semiring R] {impl : Prod R R R} (hp : impl.Conforms id id) (pl : Place) {reps : Nat} (hr : 0 < reps) {A B : Dense R} {m k n : Nat}
    {f g : Nat → Nat → R} (hA : A.Is m k f) (hB : B.Is k n g) (hAo : A.ori = .col) (hBo : B.ori = .col) (ha : Accepts pl m k) :
    Computes (blaze impl pl reps) A B m n (fun i j => ∑ l ∈ range k, f i l * g l j) := by
  obtain ⟨D, e, ho, hD⟩ := C80_blaze_partial id id impl hp pl A B (Dense.empty .col) m k n f g hA hB hAo hBo rfl ha
  exact ⟨D, repeated_eq e hr, ho, hD⟩

theorem blazeS_computes [Semiring F] {impl : Prod F F F} (hp : impl.Conforms id id) (toF : R → F) (toD : F → R) (pl : Place) {reps : Nat} (hr : 0 < reps)
    {A B : Dense R} {m k n : Nat} {f g : Nat → Nat → R} (hA : A.Is m k f) (hB : B.Is k n g) (ha : Accepts pl m k) :
    Computes (blazeS toF toD impl pl reps) A B m n (fun i j => toD (∑ l ∈ range k, toF (f i l) * toF (g l j))) := by
  obtain ⟨fA, e1, o1, h1⟩ := Dense.convert_sat toF .col hA
  obtain ⟨fB, e2, o2, h2⟩ := Dense.convert_sat toF .col hB
  obtain ⟨C, e3, o3, h3⟩ := C80_blaze_partial id id impl hp pl fA fB (Dense.empty .col) m k n _ _ h1 h2 o1 o2 rfl ha
  obtain ⟨D, e4, o4, h4⟩ := Dense.convert_sat toD .col h3
  refine ⟨D, ?_, o4, h4⟩
  simp only [blazeS, e1, e2, bind_ok', repeated_eq e3 hr, e4]

theorem blazeSD_computes [Semiring R] (toF : R → F) (toD : F → R) {impl : Prod F R R} (hp : impl.Conforms toD id) (pl : Place) {reps : Nat} (hr : 0 < reps)
    {A B : Dense R} {m k n : Nat} {f g : Nat → Nat → R} (hA : A.Is m k f) (hB : B.Is k n g) (hBo : B.ori = .col) (ha : Accepts pl m k) :
    Computes (blazeSD toF impl pl reps) A B m n (fun i j => ∑ l ∈ range k, toD (toF (f i l)) * g l j) := by
  obtain ⟨fA, e1, o1, h1⟩ := Dense.convert_sat toF .col hA
  obtain ⟨D, e3, o3, h3⟩ := C80_blaze_partial toD id impl hp pl fA B (Dense.empty .col) m k n _ _ h1 hB o1 hBo rfl ha
  refine ⟨D, ?_, o3, h3⟩
  simp only [blazeSD, e1, bind_ok', repeated_eq e3 hr]

theorem blazeDS_computes [Semiring R] (toF : R → F) (toD : F → R) {impl : Prod R F R} (hp : impl.Conforms id toD) (pl : Place) {reps : Nat} (hr : 0 < reps)
    {A B : Dense R} {m k n : Nat} {f g : Nat → Nat → R} (hA : A.Is m k f) (hB : B.Is k n g) (hAo : A.ori = .col) (ha : Accepts pl m k) :
    Computes (blazeDS toF impl pl reps) A B m n (fun i j => ∑ l ∈ range k, f i l * toD (toF (g l j))) := by
  obtain ⟨fB, e1, o1, h1⟩ := Dense.convert_sat toF .col hB
  obtain ⟨D, e3, o3, h3⟩ := C80_blaze_partial id toD impl hp pl A fB (Dense.empty .col) m k n _ _ hA h1 hAo o1 rfl ha
  refine ⟨D, ?_, o3, h3⟩
  simp only [blazeDS, e1, bind_ok', repeated_eq e3 hr]

/-- What the documentation of the action names promises: precision of the two factors and of the sum. -/
def promised [Semiring R] [Semiring F] (toF : R → F) (toD : F → R) (k : Nat) (f g : Nat → Nat → R) (i j : Nat) : String → Option R
  | "native_dense" | "openblas_dgemm" | "intelmkl_dgemm" | "eigen_dgemm" | "blaze_dgemm" => some (∑ l ∈ range k, f i l * g l j)
  | "openblas_sgemm" | "intelmkl_sgemm" | "eigen_sgemm" | "blaze_sgemm" => some (toD (∑ l ∈ range k, toF (f i l) * toF (g l j)))
  | "blaze_sdgemm" => some (∑ l ∈ range k, toD (toF (f i l)) * g l j)
  | "blaze_dsgemm" => some (∑ l ∈ range k, f i l * toD (toF (g l j)))
  | _ => none

/-- The names whose action exists in every build or in the build `w`, except "blasbooster_block" (C28). -/
def available (w : With) : List String :=
  (if w.openBLAS then ["openblas_dgemm", "openblas_sgemm"] else []) ++ (if w.intelMKL then ["intelmkl_dgemm", "intelmkl_sgemm"] else []) ++
  (if w.eigen then ["eigen_dgemm", "eigen_sgemm"] else []) ++ ["blaze_dgemm", "blaze_sgemm", "blaze_sdgemm", "blaze_dsgemm", "native_dense"]

/-- C82: every available action other than "blasbooster_block" has the name it was requested by and computes the product
in the precision its name promises, for all operands with inner elements, every number of repetitions and all routines
that meet their contracts.  (Missing: Blaze actions only on sizes and addresses Blaze accepts, `C80_blaze_throws`.) -/
theorem C82_actions_partial [Semiring R] [Semiring F] (w : With) (rt : Routines R F) (hrt : rt.Conforms) (block : Action R) (reps : Nat) (hr : 0 < reps)
    (name : String) (hname : name ∈ available w) (A B : Dense R) (m k n : Nat) (f g : Nat → Nat → R)
    (hA : A.Is m k f) (hB : B.Is k n g) (hAo : A.ori = .col) (hBo : B.ori = .col)
    (hm : m < 2 ^ 31) (hk : k < 2 ^ 31) (hn : n < 2 ^ 31) (hne : 0 < k)
    (hbl : name ∈ ["blaze_dgemm", "blaze_sgemm", "blaze_sdgemm", "blaze_dsgemm"] → Accepts rt.place m k) :
    ∃ a h, make w rt block reps name = some a ∧ a.name = name ∧ Computes a A B m n h ∧
      ∀ i j, promised rt.toF rt.toD k f g i j name = some (h i j) := by
  obtain ⟨wo, wm, we⟩ := w
  have hcase : (wo = true ∧ (name = "openblas_dgemm" ∨ name = "openblas_sgemm")) ∨ (wm = true ∧ (name = "intelmkl_dgemm" ∨ name = "intelmkl_sgemm")) ∨
      (we = true ∧ (name = "eigen_dgemm" ∨ name = "eigen_sgemm")) ∨
      name = "blaze_dgemm" ∨ name = "blaze_sgemm" ∨ name = "blaze_sdgemm" ∨ name = "blaze_dsgemm" ∨ name = "native_dense" := by
    simp only [available, List.mem_append] at hname
    cases wo <;> cases wm <;> cases we <;> simp at hname ⊢ <;> tauto
  rcases hcase with ⟨rfl, rfl | rfl⟩ | ⟨rfl, rfl | rfl⟩ | ⟨rfl, rfl | rfl⟩ | rfl | rfl | rfl | rfl | rfl
  · exact ⟨_, _, by simp [make], rfl, gemm_computes hrt.dgemmOpenBLAS _ hr hA hB hAo hBo hm hk hn hne, fun _ _ => rfl⟩
  · exact ⟨_, _, by simp [make], rfl, sgemm_computes hrt.sgemmOpenBLAS rt.toF rt.toD _ hr hA hB hm hk hn hne, fun _ _ => rfl⟩
  · exact ⟨_, _, by simp [make], rfl, gemm_computes hrt.dgemmMKL _ hr hA hB hAo hBo hm hk hn hne, fun _ _ => rfl⟩
  · exact ⟨_, _, by simp [make], rfl, sgemm_computes hrt.sgemmMKL rt.toF rt.toD _ hr hA hB hm hk hn hne, fun _ _ => rfl⟩
  · exact ⟨_, _, by simp [make], rfl, eigen_computes hrt.eigenD hr hA hB hAo hBo, fun _ _ => rfl⟩
  · exact ⟨_, _, by simp [make], rfl, eigenS_computes hrt.eigenS rt.toF rt.toD hr hA hB, fun _ _ => rfl⟩
  · exact ⟨_, _, by simp [make], rfl, blaze_computes hrt.blazeD rt.place hr hA hB hAo hBo (hbl (by simp)), fun _ _ => rfl⟩
  · exact ⟨_, _, by simp [make], rfl, blazeS_computes hrt.blazeS rt.toF rt.toD rt.place hr hA hB (hbl (by simp)), fun _ _ => rfl⟩
  · exact ⟨_, _, by simp [make], rfl, blazeSD_computes rt.toF rt.toD hrt.blazeSD rt.place hr hA hB hBo (hbl (by simp)), fun _ _ => rfl⟩
  · exact ⟨_, _, by simp [make], rfl, blazeDS_computes rt.toF rt.toD hrt.blazeDS rt.place hr hA hB hAo (hbl (by simp)), fun _ _ => rfl⟩
  · exact ⟨_, _, by simp [make], rfl, C82_native reps hr A B m k n f g hA hB hAo hBo, fun _ _ => rfl⟩

/-- C82: "blasbooster_block" with significance thresholds 0 and minimal block size at most 1 computes the product too.
(Missing: other thresholds and block sizes, see C28.) -/
theorem C82_block_partial [Field R] [LinearOrder R] [IsStrictOrderedRing R] [Zero F] [One F] (w : With) (rt : Routines R F) (reps : Nat) (b : Build) (rnd ex : R → R)
    (plus : R → R → R) (sort : List R → List Nat) (hsort : ∀ l, IsSortDesc l (sort l)) (mn mx : Nat) (hmn : mn ≤ 1) (hmx : 2 * mn ≤ mx)
    (A B : Dense R) (m k n : Nat) (f g : Nat → Nat → R)
    (hA : A.Is m k f) (hB : B.Is k n g) (hoA : A.ori = .col) (hoB : B.ori = .col) (hm : 0 < m) (hk : 0 < k) (hn : 0 < n)
    (hm64 : m + 1 < 2 ^ 64) (hk31 : k < 2 ^ 31) (hn31 : n < 2 ^ 31) :
    ∃ a D, make w rt ⟨"blasbooster_block", blockPipeline b rnd ex plus sort (Settings.default 0 0) mn mx⟩ reps "blasbooster_block" = some a ∧
      a.name = "blasbooster_block" ∧ a.execute A B = .ok D ∧ D.Is m n (fun i j => ∑ l ∈ range k, f i l * g l j) := by
  obtain ⟨D, e, hD⟩ := C28_whole_pipeline_exact_partial b rnd ex plus sort hsort mn mx hmn hmx A B m k n f g hA hB hoA hoB hm hk hn hm64 hk31 hn31
  exact ⟨⟨"blasbooster_block", blockPipeline b rnd ex plus sort (Settings.default 0 0) mn mx⟩, D, by simp [make], rfl, e, hD⟩

/-! ### C83 -/

/-- The line of action number `k` for matrix number `i`: matrix number, name of the action and the norms of the difference
of its result and the result of action 0. -/
structure Row.Shows (row : Row) (i : Nat) (name : String) (r c : Nat) (h ref : Nat → Nat → ℝ) : Prop where
  matrix : row.matrix = i
  name : row.name = name
  max : IsNorm .max r c (fun x y => h x y - ref x y) row.max
  two : IsNorm .two r c (fun x y => h x y - ref x y) row.two

theorem isNorm_self (kind : NormKind) (hk : kind ≠ .one) (r c : Nat) (h : Nat → Nat → ℝ) : IsNorm kind r c (fun x y => h x y - h x y) 0 := by
  cases kind with
  | one => exact absurd rfl hk
  | two => simp [IsNorm]
  | max =>
    refine ⟨by simp, ?_⟩
    rcases Nat.eq_zero_or_pos (r * c) with h0 | h0
    · exact .inl ⟨h0, rfl⟩
    · exact .inr ⟨0, 0, Nat.pos_of_mul_pos_right h0, Nat.pos_of_mul_pos_left h0, by simp⟩

theorem compare_sat {wd : Bool} {i : Nat} {A B refC : Dense ℝ} {a : Action ℝ} {r c : Nat} {h ref : Nat → Nat → ℝ}
    (hc : Computes a A B r c h) (ho : refC.ori = .col) (href : refC.Is r c ref) (o : Out) :
    ∃ (row : Row) (D : Dense ℝ), compare wd i A B refC a o = .ok ⟨o.rows ++ [row], if wd then fun k => if k = i then some D.data else o.files k else o.files⟩ ∧
      row.Shows i a.name r c h ref ∧ D.ori = .col ∧ D.Is r c (fun x y => h x y - ref x y) := by
  obtain ⟨C, e1, o1, h1⟩ := hc
  obtain ⟨D, e2, o2, h2⟩ := Dense.binop_sat (· - ·) (Dense.empty .col) h1 href (o1.trans ho.symm) o1.symm
  obtain ⟨x, e3, h3⟩ := C35_dense .max D r c _ h2
  obtain ⟨y, e4, h4⟩ := C35_dense .two D r c _ h2
  refine ⟨⟨i, a.name, x, y⟩, D, ?_, ⟨rfl, rfl, h3, h4⟩, o2.trans o1, h2⟩
  simp only [compare, e1, e2, e3, e4, bind_ok', pure_ok']

/-- What the loop over the other actions leaves behind. -/
theorem others_sat (wd : Bool) (i : Nat) (A B refC : Dense ℝ) (r c : Nat) (ref : Nat → Nat → ℝ) (ho : refC.ori = .col) (href : refC.Is r c ref)
    (as : List (Action ℝ)) : ∀ (h : Nat → Nat → Nat → ℝ) (o : Out), (∀ k a, as[k]? = some a → Computes a A B r c (h k)) →
    ∃ (T : List Row) (fs : Nat → Option (Buf ℝ)), others wd i A B refC as o = (⟨o.rows ++ T, fs⟩, .ok ()) ∧ T.length = as.length ∧
      (∀ k a, as[k]? = some a → ∃ row : Row, T[k]? = some row ∧ row.Shows i a.name r c (h k) ref) ∧
      (∀ j, j ≠ i → fs j = o.files j) ∧ (wd = false ∨ as = [] → fs = o.files) ∧
      (wd = true → as ≠ [] → ∃ D : Dense ℝ, fs i = some D.data ∧ D.ori = .col ∧ D.Is r c (fun x y => h (as.length - 1) x y - ref x y)) := by
  induction as with
  | nil => intro h o _; exact ⟨[], o.files, by simp [others], rfl, by simp, fun _ _ => rfl, fun _ => rfl, fun _ h => absurd rfl h⟩
  | cons a as ih =>
    intro h o hc
    obtain ⟨row, D, e, hrow, hDo, hD⟩ := compare_sat (wd := wd) (i := i) (hc 0 a rfl) ho href o
    obtain ⟨T, fs, e', hl, hT, hother, hsame, hlast⟩ := ih (fun k => h (k + 1)) _ (fun k b hb => hc (k + 1) b hb)
    refine ⟨row :: T, fs, ?_, by simp [hl], ?_, ?_, ?_, ?_⟩
    · rw [others, e]
      simp only
      rw [e']
      simp
    · intro k b hb
      cases k with
      | zero =>
        simp only [List.getElem?_cons_zero, Option.some.injEq] at hb
        subst hb
        exact ⟨row, rfl, hrow⟩
      | succ k => exact hT k b (by simpa using hb)
    · intro j hj
      rw [hother j hj]
      cases wd <;> simp [hj]
    · rintro (rfl | h)
      · rw [hsame (.inl rfl)]; rfl
      · exact absurd h (by simp)
    · intro hwd _
      subst hwd
      by_cases has : as = []
      · subst has
        refine ⟨D, ?_, hDo, ?_⟩
        · rw [hsame (.inr rfl)]; simp
        · exact hD
      · obtain ⟨D', e1, e2, e3⟩ := hlast rfl has
        refine ⟨D', e1, e2, ?_⟩
        have : as.length - 1 + 1 = (a :: as).length - 1 := by
          cases as with
          | nil => exact absurd rfl has
          | cons => simp
        rw [← this]
        exact e3

/-- The lines of one pair of matrices. -/
theorem matrixStep_sat (wd : Bool) (a : Action ℝ) (as : List (Action ℝ)) (i : Nat) (A B : Dense ℝ) (r c : Nat) (h : Nat → Nat → Nat → ℝ) (o : Out)
    (hc : ∀ k act, (a :: as)[k]? = some act → Computes act A B r c (h k)) :
    ∃ (T : List Row) (fs : Nat → Option (Buf ℝ)), matrixStep wd a as i A B o = (⟨o.rows ++ T, fs⟩, .ok ()) ∧ T.length = as.length + 1 ∧
      (∀ k act, (a :: as)[k]? = some act → ∃ row : Row, T[k]? = some row ∧ row.Shows i act.name r c (h k) (h 0)) ∧
      (∀ j, j ≠ i → fs j = o.files j) ∧ (wd = false ∨ as = [] → fs = o.files) ∧
      (wd = true → as ≠ [] → ∃ D : Dense ℝ, fs i = some D.data ∧ D.ori = .col ∧ D.Is r c (fun x y => h as.length x y - h 0 x y)) := by
  obtain ⟨refC, e, ho, href⟩ := hc 0 a rfl
  obtain ⟨T, fs, e', hl, hT, h1, h2, h3⟩ := others_sat wd i A B refC r c (h 0) ho href as (fun k => h (k + 1))
    { o with rows := o.rows ++ [⟨i, a.name, 0, 0⟩] } (fun k b hb => hc (k + 1) b (by simpa using hb))
  refine ⟨⟨i, a.name, 0, 0⟩ :: T, fs, ?_, by simp [hl], ?_, h1, h2, ?_⟩
  · unfold matrixStep
    rw [e]
    simp only
    rw [e']
    simp
  · intro k act hk
    cases k with
    | zero =>
      simp only [List.getElem?_cons_zero, Option.some.injEq] at hk
      subst hk
      exact ⟨_, rfl, rfl, rfl, isNorm_self .max (by simp) r c (h 0), isNorm_self .two (by simp) r c (h 0)⟩
    | succ k => exact hT k act (by simpa using hk)
  · intro hwd has
    obtain ⟨D, e1, e2, e3⟩ := h3 hwd has
    refine ⟨D, e1, e2, ?_⟩
    have : as.length - 1 + 1 = as.length := by
      cases as with
      | nil => exact absurd rfl has
      | cons => simp
    rw [← this]
    exact e3

theorem matrices_sat (wd : Bool) (a : Action ℝ) (as : List (Action ℝ)) (la : List (Dense ℝ)) : ∀ (lb : List (Dense ℝ)) (i0 : Nat) (r c : Nat → Nat)
    (h : Nat → Nat → Nat → Nat → ℝ) (o : Out), la.length = lb.length →
    (∀ i k A B act, la[i]? = some A → lb[i]? = some B → (a :: as)[k]? = some act → Computes act A B (r i) (c i) (h i k)) →
    ∃ (T : List Row) (fs : Nat → Option (Buf ℝ)), matrices wd a as i0 la lb o = (⟨o.rows ++ T, fs⟩, .ok ()) ∧ T.length = la.length * (as.length + 1) ∧
      (∀ i k act, i < la.length → (a :: as)[k]? = some act →
        ∃ row : Row, T[i * (as.length + 1) + k]? = some row ∧ row.Shows (i0 + i) act.name (r i) (c i) (h i k) (h i 0)) ∧
      (∀ j, j < i0 ∨ i0 + la.length ≤ j → fs j = o.files j) ∧ (wd = false ∨ as = [] → fs = o.files) ∧
      (wd = true → as ≠ [] → ∀ i, i < la.length → ∃ D : Dense ℝ, fs (i0 + i) = some D.data ∧ D.ori = .col ∧
        D.Is (r i) (c i) (fun x y => h i as.length x y - h i 0 x y)) := by
  induction la with
  | nil =>
    intro lb i0 r c h o _ _
    exact ⟨[], o.files, by simp [matrices], by simp, by simp, fun _ _ => rfl, fun _ => rfl, by simp⟩
  | cons A la ih =>
    intro lb i0 r c h o hlen hc
    cases lb with
    | nil => simp at hlen
    | cons B lb =>
      obtain ⟨T0, fs0, e0, hl0, hT0, hf0, hs0, hd0⟩ := matrixStep_sat wd a as i0 A B (r 0) (c 0) (h 0) o (fun k act hk => hc 0 k A B act rfl rfl hk)
      obtain ⟨T, fs, e, hl, hT, hf, hs, hd⟩ := ih lb (i0 + 1) (fun i => r (i + 1)) (fun i => c (i + 1)) (fun i => h (i + 1)) ⟨o.rows ++ T0, fs0⟩
        (by simpa using hlen) (fun i k A B act h1 h2 h3 => hc (i + 1) k A B act (by simpa using h1) (by simpa using h2) h3)
      refine ⟨T0 ++ T, fs, ?_, ?_, ?_, ?_, ?_, ?_⟩
      · rw [matrices, e0]
        simp only
        rw [e]
        simp
      · simp [hl0, hl]; ring
      · intro i k act hi hk
        have hk' : k < as.length + 1 := by
          have := (List.getElem?_eq_some_iff.1 hk).1
          simpa using this
        cases i with
        | zero =>
          obtain ⟨row, e1, e2⟩ := hT0 k act hk
          refine ⟨row, ?_, e2⟩
          rw [List.getElem?_append_left (by omega)]
          simpa using e1
        | succ i =>
          obtain ⟨row, e1, e2⟩ := hT i k act (by simpa using hi) hk
          refine ⟨row, ?_, ?_⟩
          · rw [List.getElem?_append_right (by rw [hl0, Nat.succ_mul]; omega), hl0]
            rw [← e1]; congr 1; rw [Nat.succ_mul]; omega
          · have : i0 + (i + 1) = i0 + 1 + i := by omega
            rw [this]; exact e2
      · intro j hj
        rw [hf j (by simp at hj; omega)]
        exact hf0 j (by simp at hj; omega)
      · intro hx
        rw [hs hx]; exact hs0 hx
      · intro hwd has i hi
        cases i with
        | zero =>
          obtain ⟨D, e1, e2, e3⟩ := hd0 hwd has
          exact ⟨D, by rw [Nat.add_zero, hf i0 (by omega)]; exact e1, e2, e3⟩
        | succ i =>
          obtain ⟨D, e1, e2, e3⟩ := hd hwd has i (by simpa using hi)
          refine ⟨D, ?_, e2, e3⟩
          have : i0 + (i + 1) = i0 + 1 + i := by omega
          rw [this]; exact e1

/-- C83: if every action returns a matrix of one shape per pair of matrices, the program prints one line per pair and
accepted action, pairs in the order of the lists and actions in the order of the configuration; line (i,k) shows number i,
the name of action k and the two norms of the difference of its result and that of action 0.  Only with `--diff`, and only
with a second action, files are written: one per pair, with the difference of the last action.
(Missing: the differences of the other actions, `C83_diff_is_overwritten`; names that are not understood,
`C83_unknown_action_is_ignored`.) -/
theorem C83_table_partial (wd : Bool) (a : Action ℝ) (as : List (Action ℝ)) (la lb : List (Dense ℝ)) (r c : Nat → Nat) (h : Nat → Nat → Nat → Nat → ℝ) (o : Out)
    (hne : la ≠ []) (hlen : la.length = lb.length)
    (hc : ∀ i k A B act, la[i]? = some A → lb[i]? = some B → (a :: as)[k]? = some act → Computes act A B (r i) (c i) (h i k)) :
    ∃ (T : List Row) (fs : Nat → Option (Buf ℝ)), runOn wd (a :: as) la lb o = (⟨o.rows ++ T, fs⟩, .ok ()) ∧ T.length = la.length * (as.length + 1) ∧
      (∀ i k act, i < la.length → (a :: as)[k]? = some act →
        ∃ row : Row, T[i * (as.length + 1) + k]? = some row ∧ row.Shows i act.name (r i) (c i) (h i k) (h i 0)) ∧
      (∀ j, la.length ≤ j → fs j = o.files j) ∧ (wd = false ∨ as = [] → fs = o.files) ∧
      (wd = true → as ≠ [] → ∀ i, i < la.length → ∃ D : Dense ℝ, fs i = some D.data ∧ D.ori = .col ∧
        D.Is (r i) (c i) (fun x y => h i as.length x y - h i 0 x y)) := by
  obtain ⟨T, fs, e, h1, h2, h3, h4, h5⟩ := matrices_sat wd a as la lb 0 r c h o hlen hc
  refine ⟨T, fs, ?_, h1, ?_, fun j hj => h3 j (.inr (by omega)), h4, ?_⟩
  · unfold runOn
    rw [if_neg (by simpa using hne), if_neg (by omega)]
    exact e
  · intro i k act hi hk
    have := h2 i k act hi hk
    rwa [Nat.zero_add] at this
  · intro h1' h2' i hi
    have := h5 h1' h2' i hi
    rwa [Nat.zero_add] at this

/-- C83: a line shows maximum norm 0 exactly if the action returned the same matrix as action 0, and likewise for the
2-norm. -/
theorem C83_zero_iff_equal (row : Row) (i : Nat) (name : String) (r c : Nat) (h ref : Nat → Nat → ℝ) (hs : row.Shows i name r c h ref) :
    (row.max = 0 ↔ ∀ x y, x < r → y < c → h x y = ref x y) ∧ (row.two = 0 ↔ ∀ x y, x < r → y < c → h x y = ref x y) := by
  obtain ⟨-, -, ⟨h1, h2⟩, ⟨h3, h4⟩⟩ := hs
  refine ⟨⟨fun e x y hx hy => ?_, fun e => ?_⟩, ⟨fun e x y hx hy => ?_, fun e => ?_⟩⟩
  · have := h1 x y hx hy
    rw [e] at this
    exact sub_eq_zero.1 (abs_nonpos_iff.1 this)
  · rcases h2 with ⟨-, h⟩ | ⟨x, y, hx, hy, h⟩
    · exact h
    · rw [← h]
      beta_reduce
      rw [e x y hx hy, sub_self, abs_zero]
  · rw [e] at h4
    have h4 : (0:ℝ) = ∑ i ∈ range r, ∑ j ∈ range c, (h i j - ref i j) ^ 2 := by simpa using h4
    have := (Finset.sum_eq_zero_iff_of_nonneg (fun i _ => Finset.sum_nonneg (fun j _ => sq_nonneg (h i j - ref i j)))).1 h4.symm x (by simpa using hx)
    have := (Finset.sum_eq_zero_iff_of_nonneg (fun j _ => sq_nonneg (h x j - ref x j))).1 this y (by simpa using hy)
    exact sub_eq_zero.1 (by simpa using this)
  · have : row.two ^ 2 = 0 := by
      rw [h4]
      refine Finset.sum_eq_zero fun i hi => Finset.sum_eq_zero fun j hj => ?_
      beta_reduce
      rw [e i j (by simpa using hi) (by simpa using hj), sub_self]; simp
    simpa using this

/-- C83: missing matrices, lists of different length and missing actions are reported and nothing is printed. -/
theorem C83_bad_input_throws (wd : Bool) (actions : List (Action ℝ)) (la lb : List (Dense ℝ)) (o : Out)
    (h : la = [] ∨ la.length ≠ lb.length ∨ actions = []) : ∃ msg, runOn wd actions la lb o = (o, .error (.throw msg)) := by
  unfold runOn
  split
  · exact ⟨_, rfl⟩
  · rename_i h1
    split
    · exact ⟨_, rfl⟩
    · rename_i h2
      rcases h with rfl | h | rfl
      · exact absurd rfl h1
      · exact absurd h h2
      · exact ⟨_, rfl⟩

/-- C83 is false without a matrix set "A" or "B": the program dereferences the end iterator. -/
theorem C83_missing_set_is_ub (wd : Bool) (actions : List (Action ℝ)) (sets : Provider.Sets ℝ) (o : Out) (h : sets "A" = none ∨ sets "B" = none) :
    run wd actions sets o = (o, .error .ub) := by
  unfold run Provider.Sets.get
  cases hA : sets "A" with
  | none => rfl
  | some la =>
    rcases h with h | h
    · rw [hA] at h; exact absurd h (by simp)
    · simp only [h]

/-- C83 is false for unknown names: they are dropped silently. -/
theorem C83_unknown_action_is_ignored [Semiring R] [Semiring F] (w : With) (rt : Routines R F) (block : Action R) (reps : Nat) (n1 n2 : List String) (name : String)
    (h1 : name ∉ available w) (h2 : name ≠ "blasbooster_block") :
    provide w rt block reps (n1 ++ name :: n2) = provide w rt block reps (n1 ++ n2) := by
  have hn : make w rt block reps name = none := by
    obtain ⟨wo, wm, we⟩ := w
    simp only [available, List.mem_append] at h1
    simp only [make]
    cases wo <;> cases wm <;> cases we <;> simp at h1 ⊢ <;> simp [h1, h2]
  induction n1 with
  | nil => simp only [List.nil_append, provide, hn]
  | cons n n1 ih =>
    simp only [List.cons_append, provide, ih]

/-- C83: all other names are kept, in order. -/
theorem C83_known_actions [Semiring R] [Semiring F] (w : With) (rt : Routines R F) (block : Action R) (reps : Nat) (names : List String)
    (hb : block.name = "blasbooster_block") (h : ∀ n ∈ names, n ∈ available w ∨ n = "blasbooster_block") :
    (provide w rt block reps names).map Action.name = names := by
  induction names with
  | nil => rfl
  | cons n ns ih =>
    have hn : ∃ a, make w rt block reps n = some a ∧ a.name = n := by
      have := h n (by simp)
      obtain ⟨wo, wm, we⟩ := w
      simp only [available, List.mem_append] at this
      have hcase : n = "blasbooster_block" ∨ (wo = true ∧ (n = "openblas_dgemm" ∨ n = "openblas_sgemm")) ∨ (wm = true ∧ (n = "intelmkl_dgemm" ∨ n = "intelmkl_sgemm")) ∨
          (we = true ∧ (n = "eigen_dgemm" ∨ n = "eigen_sgemm")) ∨
          n = "blaze_dgemm" ∨ n = "blaze_sgemm" ∨ n = "blaze_sdgemm" ∨ n = "blaze_dsgemm" ∨ n = "native_dense" := by
        cases wo <;> cases wm <;> cases we <;> simp at this ⊢ <;> tauto
      rcases hcase with rfl | ⟨rfl, rfl | rfl⟩ | ⟨rfl, rfl | rfl⟩ | ⟨rfl, rfl | rfl⟩ | rfl | rfl | rfl | rfl | rfl <;>
        simp [make, hb, gemm, sgemm, eigen, eigenS, blaze, blazeS, blazeSD, blazeDS, native]
    obtain ⟨a, e1, e2⟩ := hn
    simp only [provide, e1, List.map_cons, e2, ih (fun n hn => h n (by simp [hn]))]

/-- An action that returns its first operand times `x`. -/
noncomputable def scaled (x : ℝ) : Action ℝ := ⟨"scaled", fun A _ => A.convert (x * ·) .col⟩

theorem scaled_computes (x : ℝ) (A B : Dense ℝ) (r c : Nat) (f : Nat → Nat → ℝ) (hA : A.Is r c f) : Computes (scaled x) A B r c (fun i j => x * f i j) :=
  Dense.convert_sat (x * ·) .col hA

/-- C83 is false for the files with three actions: the file of the pair holds the difference of the third action, that of
the second one (a different matrix) is in no file. -/
theorem C83_diff_is_overwritten : ∃ (as : List (Action ℝ)) (A B : Dense ℝ) (o : Out) (D : Dense ℝ), as.length = 3 ∧
    runOn true as [A] [B] ⟨[], fun _ => none⟩ = (o, .ok ()) ∧ o.files 0 = some D.data ∧ D.Is 1 1 (fun _ _ => 2) ∧ (∀ j, j ≠ 0 → o.files j = none) ∧
    ∃ row, o.rows[1]? = some row ∧ row.max = 1 := by
  let A : Dense ℝ := Dense.ofFn .col 1 1 (fun _ _ => 1)
  have hA : A.Is 1 1 (fun _ _ => 1) := Dense.ofFn_is ..
  obtain ⟨T, fs, e, h1, h2, h3, -, h5⟩ := C83_table_partial true (scaled 0) [scaled 1, scaled 2] [A] [A] (fun _ => 1) (fun _ => 1)
    (fun _ k _ _ => (k : ℝ) * 1) ⟨[], fun _ => none⟩ (by simp) rfl (by
      intro i k A' B' act hA' hB' hk
      have : A' = A := by
        cases i with
        | zero => simpa using hA'.symm
        | succ i => simp at hA'
      subst this
      match k, hk with
      | 0, hk =>
        simp only [List.getElem?_cons_zero, Option.some.injEq] at hk
        subst hk
        have := scaled_computes 0 A B' 1 1 _ hA
        simpa using this
      | 1, hk =>
        simp only [List.getElem?_cons_succ, List.getElem?_cons_zero, Option.some.injEq] at hk
        subst hk
        have := scaled_computes 1 A B' 1 1 _ hA
        simpa using this
      | 2, hk =>
        simp only [List.getElem?_cons_succ, List.getElem?_cons_zero, Option.some.injEq] at hk
        subst hk
        have := scaled_computes 2 A B' 1 1 _ hA
        simpa using this
      | k + 3, hk => simp at hk)
  obtain ⟨D, d1, -, d3⟩ := h5 rfl (by simp) 0 (by simp)
  refine ⟨_, A, A, _, D, rfl, e, d1, d3.congr (by simp), fun j hj => h3 j (by simp; omega), ?_⟩
  obtain ⟨row, r1, r2⟩ := h2 0 1 (scaled 1) (by simp) rfl
  refine ⟨row, by simpa using r1, ?_⟩
  obtain ⟨-, h | ⟨x, y, hx, hy, h⟩⟩ := r2.max
  · exact absurd h.1 (by simp)
  · rw [← h]; norm_num

/-- C83, failures: lines that were printed before an action failed stay valid; nothing is printed for the failing one. -/
theorem C83_failure_keeps_lines (wd : Bool) (i : Nat) (A B refC : Dense ℝ) (as bs : List (Action ℝ)) (b : Action ℝ) (e : Fault) (o : Out)
    (hb : b.execute A B = .error e) (h : (others wd i A B refC as o).2 = .ok ()) :
    others wd i A B refC (as ++ b :: bs) o = ((others wd i A B refC as o).1, .error e) := by
  induction as generalizing o with
  | nil => simp only [List.nil_append, others, compare, hb, bind_error']
  | cons a as ih =>
    simp only [List.cons_append, others] at h ⊢
    cases hc : compare wd i A B refC a o with
    | ok o' =>
      simp only [hc] at h ⊢
      exact ih o' h
    | error e' =>
      simp only [hc] at h
      cases h

/-- Routines that meet their contracts. -/
noncomputable def refRoutines (pl : Place) : Routines ℝ ℝ :=
  ⟨id, id, refGemm, refGemm, refGemm, refGemm, refProd id id, refProd id id, refProd id id, refProd id id, refProd id id, refProd id id, pl⟩

theorem refRoutines_conforms (pl : Place) : (refRoutines pl).Conforms :=
  ⟨refGemm_conforms, refGemm_conforms, refGemm_conforms, refGemm_conforms, refProd_conforms _ _, refProd_conforms _ _, refProd_conforms _ _,
    refProd_conforms _ _, refProd_conforms _ _, refProd_conforms _ _⟩

/-- The names of actions that compute in double precision, Blaze excepted. -/
def doubleNames : List String := ["native_dense", "openblas_dgemm", "intelmkl_dgemm", "eigen_dgemm"]

/-- C83: with actions that compute in double precision the whole table shows zeros (in exact arithmetic): any choice of
available names, any matrices with inner elements. -/
theorem C83_exact_actions_agree [Semiring F] (wd : Bool) (w : With) (rt : Routines ℝ F) (hrt : rt.Conforms) (block : Action ℝ) (reps : Nat) (hr : 0 < reps)
    (names : List String) (hn : names ≠ []) (hn' : ∀ n ∈ names, n ∈ doubleNames ∧ n ∈ available w) (la lb : List (Dense ℝ)) (hne : la ≠ [])
    (hlen : la.length = lb.length) (m k n : Nat → Nat) (f g : Nat → Nat → Nat → ℝ)
    (hA : ∀ i (A : Dense ℝ), la[i]? = some A → A.Is (m i) (k i) (f i) ∧ A.ori = .col) (hB : ∀ i (B : Dense ℝ), lb[i]? = some B → B.Is (k i) (n i) (g i) ∧ B.ori = .col)
    (hd : ∀ i, i < la.length → m i < 2 ^ 31 ∧ k i < 2 ^ 31 ∧ n i < 2 ^ 31 ∧ 0 < k i) (o : Out) :
    ∃ (T : List Row) (fs : Nat → Option (Buf ℝ)), runOn wd (provide w rt block reps names) la lb o = (⟨o.rows ++ T, fs⟩, .ok ()) ∧
      T.length = la.length * names.length ∧
      ∀ (i j : Nat) (name : String), i < la.length → names[j]? = some name → ∃ row : Row, T[i * names.length + j]? = some row ∧
        row.matrix = i ∧ row.name = name ∧ row.max = 0 ∧ row.two = 0 := by
  have hmap : (provide w rt block reps names).map Action.name = names ∧ ∀ a ∈ provide w rt block reps names, ∃ nm ∈ names, make w rt block reps nm = some a ∧ a.name = nm := by
    clear hn
    induction names with
    | nil => exact ⟨rfl, by simp [provide]⟩
    | cons nm ns ih =>
      obtain ⟨ih1, ih2⟩ := ih (fun n hn => hn' n (by simp [hn]))
      have hx : ∃ a, make w rt block reps nm = some a ∧ a.name = nm := by
        obtain ⟨a, h, e1, e2, -, -⟩ := C82_actions_partial w rt hrt block reps hr nm (hn' nm (by simp)).2 (Dense.ofFn .col 1 1 fun _ _ => 0) (Dense.ofFn .col 1 1 fun _ _ => 0)
          1 1 1 _ _ (Dense.ofFn_is ..) (Dense.ofFn_is ..) rfl rfl (by norm_num) (by norm_num) (by norm_num) (by norm_num) (by
            intro hb
            have := (hn' nm (by simp)).1
            simp only [doubleNames, List.mem_cons, List.not_mem_nil, or_false] at this hb
            rcases this with rfl | rfl | rfl | rfl <;> simp at hb)
        exact ⟨a, e1, e2⟩
      obtain ⟨a, e1, e2⟩ := hx
      simp only [provide, e1, List.map_cons, e2, ih1]
      refine ⟨trivial, ?_⟩
      intro b hb
      rcases List.mem_cons.1 hb with rfl | hb
      · exact ⟨nm, by simp, e1, e2⟩
      · obtain ⟨nm', h1, h2⟩ := ih2 b hb
        exact ⟨nm', by simp [h1], h2⟩
  obtain ⟨hm1, hm2⟩ := hmap
  have hlen' : (provide w rt block reps names).length = names.length := by rw [← hm1, List.length_map, hm1]
  generalize provide w rt block reps names = acts at *
  cases acts with
  | nil =>
    rw [List.length_nil] at hlen'
    exact absurd (List.length_eq_zero_iff.1 hlen'.symm) hn
  | cons a as =>
    obtain ⟨T, fs, e, h1, h2, -⟩ := C83_table_partial wd a as la lb m n (fun i _ x y => ∑ l ∈ range (k i), f i x l * g i l y) o hne hlen (by
      intro i kk A B act hA' hB' hact
      obtain ⟨nm, hnm, e1, e2⟩ := hm2 act (List.mem_of_getElem? hact)
      have hi : i < la.length := (List.getElem?_eq_some_iff.1 hA').1
      obtain ⟨d1, d2, d3, d4⟩ := hd i hi
      have hdn := (hn' nm hnm).1
      obtain ⟨act', h, e3, -, hc, hp⟩ := C82_actions_partial w rt hrt block reps hr nm (hn' nm hnm).2 A B (m i) (k i) (n i) (f i) (g i)
        (hA i A hA').1 (hB i B hB').1 (hA i A hA').2 (hB i B hB').2 d1 d2 d3 d4 (by
          intro hb
          simp only [doubleNames, List.mem_cons, List.not_mem_nil, or_false] at hdn hb
          rcases hdn with rfl | rfl | rfl | rfl <;> simp at hb)
      rw [e1] at e3
      injection e3 with e3
      subst e3
      have hh : h = fun x y => ∑ l ∈ range (k i), f i x l * g i l y := by
        funext x y
        have := hp x y
        simp only [doubleNames, List.mem_cons, List.not_mem_nil, or_false] at hdn
        rcases hdn with rfl | rfl | rfl | rfl <;> exact (Option.some.inj this).symm
      rw [← hh]
      exact hc)
    have hK : as.length + 1 = names.length := by simpa using hlen'
    refine ⟨T, fs, e, by rw [h1, hK], ?_⟩
    intro i j name hi hj
    have hj' : (a :: as)[j]?.map Action.name = some name := by rw [← List.getElem?_map, hm1]; exact hj
    obtain ⟨act, hact, hname⟩ := Option.map_eq_some_iff.1 hj'
    obtain ⟨row, r1, r2⟩ := h2 i j act hi hact
    rw [hK] at r1
    obtain ⟨z1, z2⟩ := C83_zero_iff_equal row _ _ _ _ _ _ r2
    exact ⟨row, r1, r2.matrix, r2.name.trans hname, z1.2 (fun _ _ _ _ => rfl), z2.2 (fun _ _ _ _ => rfl)⟩

/-- Non-vacuity: two pairs of 2×2 matrices and three actions give six lines of zeros. -/
example : ∃ (T : List Row) (fs : Nat → Option (Buf ℝ)),
    runOn true (provide ⟨true, false, true⟩ (refRoutines ⟨4, 4, 4, true, true, true⟩) (native 1) 3 ["native_dense", "openblas_dgemm", "eigen_dgemm"])
      [Dense.ofFn .col 2 2 (fun i j => (i + j : ℝ)), Dense.ofFn .col 2 2 (fun i j => (i - j : ℝ))]
      [Dense.ofFn .col 2 2 (fun i j => (i * j : ℝ)), Dense.ofFn .col 2 2 (fun i _ => (i + 1 : ℝ))] ⟨[], fun _ => none⟩ = (⟨[] ++ T, fs⟩, .ok ()) ∧ T.length = 6 := by
  obtain ⟨T, fs, e, h, -⟩ := C83_exact_actions_agree true ⟨true, false, true⟩ (refRoutines ⟨4, 4, 4, true, true, true⟩) (refRoutines_conforms _) (native 1) 3 (by norm_num)
    ["native_dense", "openblas_dgemm", "eigen_dgemm"] (by simp) (by intro n hn; simp at hn; rcases hn with rfl | rfl | rfl <;> simp [doubleNames, available])
    [Dense.ofFn .col 2 2 (fun i j => (i + j : ℝ)), Dense.ofFn .col 2 2 (fun i j => (i - j : ℝ))]
    [Dense.ofFn .col 2 2 (fun i j => (i * j : ℝ)), Dense.ofFn .col 2 2 (fun i _ => (i + 1 : ℝ))] (by simp) rfl (fun _ => 2) (fun _ => 2) (fun _ => 2)
    (fun t i j => if t = 0 then i + j else i - j) (fun t i j => if t = 0 then i * j else i + 1)
    (by
      intro i A hA
      match i, hA with
      | 0, hA => simp only [List.getElem?_cons_zero, Option.some.injEq] at hA; subst hA; exact ⟨Dense.ofFn_is .., rfl⟩
      | 1, hA => simp only [List.getElem?_cons_succ, List.getElem?_cons_zero, Option.some.injEq] at hA; subst hA; exact ⟨Dense.ofFn_is .., rfl⟩
      | i + 2, hA => simp at hA)
    (by
      intro i A hA
      match i, hA with
      | 0, hA => simp only [List.getElem?_cons_zero, Option.some.injEq] at hA; subst hA; exact ⟨Dense.ofFn_is .., rfl⟩
      | 1, hA => simp only [List.getElem?_cons_succ, List.getElem?_cons_zero, Option.some.injEq] at hA; subst hA; exact ⟨Dense.ofFn_is .., rfl⟩
      | i + 2, hA => simp at hA)
    (by intro i _; norm_num) ⟨[], fun _ => none⟩
  exact ⟨T, fs, e, h⟩

/-! ### C84 -/

theorem loop_const {σ : Type} {x : Res σ} {D : σ} (h : x = .ok D) {reps : Nat} (hr : 0 < reps) (s : σ) : loopN reps (fun _ _ => x) s = .ok D := by
  obtain ⟨n, rfl⟩ : ∃ n, reps = n + 1 := ⟨reps - 1, by omega⟩
  have : ∀ k, loopN k (fun _ (_ : σ) => x) s = .ok (if k = 0 then s else D) := by
    intro k
    induction k with
    | zero => rfl
    | succ k ih =>
      rw [loopN, ih]
      show x = _
      rw [h]; simp
  rw [this]; simp

/-- The sparse copy of a dense matrix: nothing but the non-zero elements is stored, converted to the element type. -/
theorem sparse_copy [Zero R] [DecidableEq R] [Zero F] (toF : R → F) (h0 : toF 0 = 0) {A : Dense R} {r c : Nat} {f : Nat → Nat → R}
    (hA : A.Is r c f) (ho : A.ori = .col) :
    ∃ S, Sparse.ofDense nonzero toF .col A = .ok S ∧ S.ori = .col ∧ S.Tight ∧ S.Is r c (fun i j => toF (f i j)) ∧
      S.nnz = ∑ i ∈ range r, ∑ j ∈ range c, (if f i j ≠ 0 then 1 else 0) := by
  obtain ⟨S, e, h1, h2, h3⟩ := Sparse.ofDense_sat nonzero toF .col hA ho
  refine ⟨S, e, h1, ?_, ⟨_, h3, ?_⟩, ?_⟩
  · refine ⟨_, ?_, h2⟩
    rw [List.getLast?_eq_getElem?, h3.offsLen, Nat.add_sub_cancel, h3.offs _ (Nat.le_refl _), List.take_length, Sparse.picks_count]
  · intro i j hi hj
    rw [h1, Sparse.entry_picks nonzero toF .col f hi hj]
    by_cases hz : f i j = 0
    · simp [nonzero, hz, h0]
    · simp [nonzero, hz]
  · refine h2.trans ?_
    simp [countAcc, nonzero]

theorem sparseNative_sat [Zero R] [DecidableEq R] [Semiring F] [DecidableEq F] (toF : R → F) (toD : F → R) (h0 : toF 0 = 0) (h0' : toD 0 = 0)
    {reps : Nat} (hr : 0 < reps) {A B : Dense R} {m k n : Nat} {f g : Nat → Nat → R} (hA : A.Is m k f) (hB : B.Is k n g) (hAo : A.ori = .col) (hBo : B.ori = .col) :
    ∃ D, sparseNative toF toD reps A B = .ok D ∧ D.Is m n (fun i j => toD (∑ l ∈ range k, toF (f i l) * toF (g l j))) := by
  obtain ⟨sA, e1, o1, -, h1, -⟩ := sparse_copy toF h0 hA hAo
  obtain ⟨sB, e2, o2, -, h2, -⟩ := sparse_copy toF h0 hB hBo
  obtain ⟨S, L, e3, -, -, -, -, -, h3⟩ := C23_sparse_product sA sB (Sparse.empty .col) m k n _ _ h1 h2 o1 o2 rfl
  obtain ⟨D, e4, -, h4⟩ := C11_sparse_to_dense toD h0' .col S m n _ h3
  refine ⟨D, ?_, h4⟩
  simp only [sparseNative, e1, e2, bind_ok', loop_const e3 hr, e4]

/-- C84: the two sparse actions return the product, for all sizes, also empty ones (float: of the rounded factors). -/
theorem C84_sparse_partial [Semiring R] [DecidableEq R] [Semiring F] [DecidableEq F] (w : With) (rt : Routines R F) (sp : SparseRoutines R F) (block : Action R)
    (h0 : rt.toF 0 = 0) (h0' : rt.toD 0 = 0) (reps : Nat) (hr : 0 < reps) (A B : Dense R) (m k n : Nat) (f g : Nat → Nat → R)
    (hA : A.Is m k f) (hB : B.Is k n g) (hAo : A.ori = .col) (hBo : B.ori = .col) :
    (∃ D, byName w rt sp block reps "blasbooster_sparse_double" A B = .ok D ∧ D.Is m n (fun i j => ∑ l ∈ range k, f i l * g l j)) ∧
    (∃ D, byName w rt sp block reps "blasbooster_sparse_float" A B = .ok D ∧
      D.Is m n (fun i j => rt.toD (∑ l ∈ range k, rt.toF (f i l) * rt.toF (g l j)))) := by
  constructor
  · obtain ⟨D, e, h⟩ := sparseNative_sat (R := R) (F := R) id id rfl rfl hr hA hB hAo hBo
    exact ⟨D, by simp [byName, e], h⟩
  · obtain ⟨D, e, h⟩ := sparseNative_sat rt.toF rt.toD h0 h0' hr hA hB hAo hBo
    exact ⟨D, by simp [byName, e], h⟩

/-- C84: the dense actions. -/
theorem C84_gemm_partial [Semiring R] [DecidableEq R] [Semiring F] [DecidableEq F] (w : With) (rt : Routines R F) (hrt : rt.Conforms) (sp : SparseRoutines R F) (block : Action R)
    (reps : Nat) (hr : 0 < reps) (A B : Dense R) (m k n : Nat) (f g : Nat → Nat → R)
    (hA : A.Is m k f) (hB : B.Is k n g) (hAo : A.ori = .col) (hBo : B.ori = .col) (hm : m < 2 ^ 31) (hk : k < 2 ^ 31) (hn : n < 2 ^ 31) (hne : 0 < k) (name : String) :
    ((w.openBLAS = true ∧ name = "openblas_dgemm") ∨ (w.intelMKL = true ∧ name = "intelmkl_dgemm") →
      ∃ D, byName w rt sp block reps name A B = .ok D ∧ D.Is m n (fun i j => ∑ l ∈ range k, f i l * g l j)) ∧
    ((w.openBLAS = true ∧ name = "openblas_sgemm") ∨ (w.intelMKL = true ∧ name = "intelmkl_sgemm") →
      ∃ D, byName w rt sp block reps name A B = .ok D ∧ D.Is m n (fun i j => rt.toD (∑ l ∈ range k, rt.toF (f i l) * rt.toF (g l j)))) := by
  constructor
  · rintro (⟨hw, rfl⟩ | ⟨hw, rfl⟩)
    · obtain ⟨D, e, -, h⟩ := gemm_computes hrt.dgemmOpenBLAS "openblas_dgemm" hr hA hB hAo hBo hm hk hn hne
      exact ⟨D, by simp [byName, hw, e], h⟩
    · obtain ⟨D, e, -, h⟩ := gemm_computes hrt.dgemmMKL "intelmkl_dgemm" hr hA hB hAo hBo hm hk hn hne
      exact ⟨D, by simp [byName, hw, e], h⟩
  · rintro (⟨hw, rfl⟩ | ⟨hw, rfl⟩)
    · obtain ⟨D, e, -, h⟩ := sgemm_computes hrt.sgemmOpenBLAS rt.toF rt.toD "openblas_sgemm" hr hA hB hm hk hn hne
      exact ⟨D, by simp [byName, hw, e], h⟩
    · obtain ⟨D, e, -, h⟩ := sgemm_computes hrt.sgemmMKL rt.toF rt.toD "intelmkl_sgemm" hr hA hB hm hk hn hne
      exact ⟨D, by simp [byName, hw, e], h⟩

theorem csrmm_sat [Zero R] [DecidableEq R] [Semiring F] (toF : R → F) (toD : F → R) (h0 : toF 0 = 0) {impl : Csrmm F} (hi : impl.Conforms)
    {reps : Nat} (hr : 0 < reps) {A B : Dense R} {m k n : Nat} {f g : Nat → Nat → R} (hA : A.Is m k f) (hB : B.Is k n g) (hAo : A.ori = .col)
    (hn : n < 2 ^ 31) (hmk : m * k + 1 < 2 ^ 31) (hnz : ∃ i j, i < m ∧ j < k ∧ f i j ≠ 0) :
    ∃ D, csrmm toF toD impl reps A B = .ok D ∧ D.Is m n (fun i j => toD (∑ l ∈ range k, toF (f i l) * toF (g l j))) := by
  obtain ⟨sA, e1, o1, t1, h1, n1⟩ := sparse_copy toF h0 hA hAo
  obtain ⟨fB, e2, o2, h2⟩ := Dense.convert_sat toF .col hB
  obtain ⟨i, j, hi', hj', hij⟩ := hnz
  have hpos : 0 < sA.nnz := by
    rw [n1]
    refine Finset.sum_pos' (fun _ _ => Nat.zero_le _) ⟨i, by simpa using hi', ?_⟩
    exact Finset.sum_pos' (fun _ _ => Nat.zero_le _) ⟨j, by simpa using hj', by simp [hij]⟩
  have hle : sA.nnz ≤ m * k := by
    rw [n1]
    calc _ ≤ ∑ i ∈ range m, ∑ j ∈ range k, 1 := Finset.sum_le_sum fun i _ => Finset.sum_le_sum fun j _ => by split <;> omega
      _ = m * k := by simp
  have hm : m ≤ m * k := Nat.le_mul_of_pos_right _ (by omega)
  have hk : k ≤ m * k := Nat.le_mul_of_pos_left _ (by omega)
  obtain ⟨C, e3, -, h3⟩ := C46_csrmm impl hi sA fB (Dense.empty .col) m k n _ _ h1 t1 h2 o1 o2 rfl (by omega) (by omega) hn (by omega) (by omega)
  obtain ⟨D, e4, -, h4⟩ := Dense.convert_sat toD .col h3
  refine ⟨D, ?_, h4⟩
  simp only [csrmm, e1, e2, bind_ok', repeated_eq e3 hr, e4]

/-- C84: sparse times dense with MKL, if A has a non-zero element. -/
theorem C84_csrmm_partial [Semiring R] [DecidableEq R] [Semiring F] [DecidableEq F] (w : With) (hw : w.intelMKL = true) (rt : Routines R F) (sp : SparseRoutines R F)
    (hd : sp.dcsrmm.Conforms) (hs : sp.scsrmm.Conforms) (block : Action R) (h0 : rt.toF 0 = 0)
    (reps : Nat) (hr : 0 < reps) (A B : Dense R) (m k n : Nat) (f g : Nat → Nat → R)
    (hA : A.Is m k f) (hB : B.Is k n g) (hAo : A.ori = .col) (hn : n < 2 ^ 31) (hmk : m * k + 1 < 2 ^ 31)
    (hnz : ∃ i j, i < m ∧ j < k ∧ f i j ≠ 0) :
    (∃ D, byName w rt sp block reps "intelmkl_dcsrmm" A B = .ok D ∧ D.Is m n (fun i j => ∑ l ∈ range k, f i l * g l j)) ∧
    (∃ D, byName w rt sp block reps "intelmkl_scsrmm" A B = .ok D ∧
      D.Is m n (fun i j => rt.toD (∑ l ∈ range k, rt.toF (f i l) * rt.toF (g l j)))) := by
  constructor
  · obtain ⟨D, e, h⟩ := csrmm_sat (R := R) (F := R) id id rfl hd hr hA hB hAo hn hmk hnz
    exact ⟨D, by simp [byName, hw, e], h⟩
  · obtain ⟨D, e, h⟩ := csrmm_sat rt.toF rt.toD h0 hs hr hA hB hAo hn hmk hnz
    exact ⟨D, by simp [byName, hw, e], h⟩

/-- C84 is false for "intelmkl_dcsrmultcsr": for square operands the result is B*A. -/
theorem C84_csrmultcsr_is_swapped [CommSemiring R] [DecidableEq R] [Semiring F] [DecidableEq F] (w : With) (hw : w.intelMKL = true) (rt : Routines R F) (sp : SparseRoutines R F)
    (hd : sp.dcsrmultcsr.Conforms) (block : Action R) (reps : Nat) (hr : 0 < reps) (A B : Dense R) (n : Nat) (f g : Nat → Nat → R)
    (hA : A.Is n n f) (hB : B.Is n n g) (hAo : A.ori = .col) (hBo : B.ori = .col) (hn : n * n + 1 < 2 ^ 31) :
    ∃ D, byName w rt sp block reps "intelmkl_dcsrmultcsr" A B = .ok D ∧ D.Is n n (fun i j => ∑ l ∈ range n, g i l * f l j) := by
  obtain ⟨sA, e1, o1, t1, h1, -⟩ := sparse_copy (R := R) (F := R) id rfl hA hAo
  obtain ⟨sB, e2, o2, t2, h2, -⟩ := sparse_copy (R := R) (F := R) id rfl hB hBo
  obtain ⟨S, e3, -, h3⟩ := C81_square_is_swapped sp.dcsrmultcsr hd sA sB (Sparse.empty .col) n _ _ h1 h2 t1 t2 o1 o2 rfl hn
  obtain ⟨D, e4, -, h4⟩ := C11_sparse_to_dense (T := R) id rfl .col S n n _ h3
  refine ⟨D, ?_, h4⟩
  simp [byName, hw, csrmultcsr, e1, e2, bind_ok', loop_const e3 hr, e4]

/-- C84 is false for unknown names (among them the names of the other program's actions): no exception is thrown, the
result is made from an uninitialised variable. -/
theorem C84_unknown_is_ub [Semiring R] [DecidableEq R] [Semiring F] [DecidableEq F] (w : With) (rt : Routines R F) (sp : SparseRoutines R F) (block : Action R)
    (reps : Nat) (A B : Dense R) (name : String)
    (h : name ∉ ["openblas_dgemm", "openblas_sgemm", "intelmkl_dgemm", "intelmkl_sgemm", "intelmkl_dcsrmm", "intelmkl_scsrmm", "intelmkl_dcsrmultcsr",
      "intelmkl_scsrmultcsr", "blasbooster_block", "blasbooster_sparse_double", "blasbooster_sparse_float"]) :
    byName w rt sp block reps name A B = .error .ub := by
  simp only [List.mem_cons, List.not_mem_nil, or_false, not_or] at h
  simp [byName, h]

example (w : With) (rt : Routines ℤ ℤ) (sp : SparseRoutines ℤ ℤ) (block : Action ℤ) (A B : Dense ℤ) : byName w rt sp block 1 "native_dense" A B = .error .ub :=
  C84_unknown_is_ub w rt sp block 1 A B "native_dense" (by decide)

example : (do
    let D ← sparseNative (R := Int) (F := Int) id id 2 (Dense.ofFn .col 2 3 (fun i j => (10 * i + j : Int))) (Dense.ofFn .col 3 2 (fun i j => (i - j : Int)))
    D.get 1 1 : Res Int).toOption = some 2 := by decide +kernel

end BB.Bench
