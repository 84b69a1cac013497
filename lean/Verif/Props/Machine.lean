import Verif.Model.Machine
import Verif.Lemmas.Norm

/-!
# C106: sizes at the limits of the integer types
-/

namespace BB

open Machine

variable {R : Type}

/-! ## Specification -/

/-- Dimensions for which the number of elements can be represented in the index type. -/
def FitsIn (ix : Ix) (r c : Int) : Prop :=
  0 ≤ r ∧ 0 ≤ c ∧ ix.Val r ∧ ix.Val c ∧ ix.Val (r * c)

/-- Calls with such dimensions and with indices that are values of the index type; enough memory. -/
def CallOk (ix : Ix) (cap : Nat) : Call R → Prop
  | .resize r c => FitsIn ix r c ∧ r * c ≤ cap
  | .set i j _ => (0 ≤ i ∧ ix.Val i) ∧ (0 ≤ j ∧ ix.Val j)
  | .get i j => (0 ≤ i ∧ ix.Val i) ∧ (0 ≤ j ∧ ix.Val j)
  | .fill _ => True

/-- The same calls on the matrices of `Model/Dense.lean`, whose sizes and positions are natural numbers
without limits. -/
def idealRun : List (Call R) → Dense R → Res (Dense R × List R)
  | [], A => .ok (A, [])
  | .resize r c :: cs, A => idealRun cs (A.resize r.toNat c.toNat)
  | .set i j x :: cs, A => do
    let A ← A.set i.toNat j.toNat x
    idealRun cs A
  | .get i j :: cs, A => do
    let x ← A.get i.toNat j.toNat
    let (A, xs) ← idealRun cs A
    return (A, x :: xs)
  | .fill x :: cs, A => do
    let A ← A.fillAll x
    idealRun cs A

/-- The matrix of `Model/Dense.lean` with the same members. -/
def Machine.MDense.ideal (M : MDense R) : Dense R := ⟨M.ori, ⟨M.rows, M.cols, M.full⟩, M.data⟩

/-- The array has as many elements as the dimensions say, and their number fits into `size_t`. -/
def Machine.MDense.Sound (M : MDense R) : Prop :=
  M.data.length = M.rows * M.cols ∧ M.full = M.rows * M.cols ∧ M.rows * M.cols < 2 ^ 64

/-! ## Within the limits the code computes with natural numbers -/

theorem toSize_of {z : Int} (h0 : 0 ≤ z) (h1 : z < 2 ^ 64) : toSize z = z.toNat := by
  unfold toSize; rw [Int.emod_eq_of_lt h0 h1]

theorem ix_val_lt {ix : Ix} {z : Int} (h : ix.Val z) : z < 2 ^ 64 := by
  cases ix <;> simp only [Ix.Val] at h <;> omega

theorem ix_wrap_of {ix : Ix} {z : Int} (h : ix.Val z) : ix.wrap z = .ok z := by
  cases ix with
  | size => simp only [Ix.Val] at h; simp only [Ix.wrap]; rw [Int.emod_eq_of_lt h.1 h.2]
  | int => simp only [Ix.Val] at h; simp only [Ix.wrap, h, and_self, if_true]

theorem FitsIn.facts {ix : Ix} {r c : Int} (h : FitsIn ix r c) :
    ix.wrap (r * c) = .ok (r * c) ∧ toSize r = r.toNat ∧ toSize c = c.toNat ∧
      toSize (r * c) = r.toNat * c.toNat ∧ r.toNat * c.toNat < 2 ^ 64 ∧ ((r.toNat * c.toNat : Nat) : Int) = r * c := by
  obtain ⟨h1, h2, h3, h4, h5⟩ := h
  have e : ((r.toNat * c.toNat : Nat) : Int) = r * c := by
    push_cast; rw [Int.toNat_of_nonneg h1, Int.toNat_of_nonneg h2]
  have hb := ix_val_lt h5
  have h0 : 0 ≤ r * c := mul_nonneg h1 h2
  refine ⟨ix_wrap_of h5, toSize_of h1 (ix_val_lt h3), toSize_of h2 (ix_val_lt h4), ?_, ?_, e⟩
  · rw [toSize_of h0 hb, ← e]; exact Int.toNat_natCast _
  · omega

/-- C106, construction.  If the number of elements can be represented in the index type, the constructor
builds the matrix that natural numbers would give – or throws, if there is not enough memory.  (Missing:
larger dimensions, see the negative theorems below.) -/
theorem C106_construct_partial (ix : Ix) (cap : Nat) (o : Ori) (r c : Int) (h : FitsIn ix r c) :
    (r * c ≤ cap → ∃ M : MDense R, MDense.new ix cap o r c = .ok M ∧ M.Sound ∧ M.ideal = Dense.new o r.toNat c.toNat) ∧
    (r * c > cap → (MDense.new ix cap o r c : Res (MDense R)) = .error (.throw "bad_alloc")) := by
  obtain ⟨e1, e2, e3, e4, h5, e6⟩ := h.facts
  constructor
  · intro hc
    have hc' : r.toNat * c.toNat ≤ cap := by omega
    refine ⟨⟨o, r.toNat, c.toNat, r.toNat * c.toNat, Buf.alloc (r.toNat * c.toNat)⟩, ?_, ⟨?_, rfl, h5⟩, rfl⟩
    · simp only [MDense.new, e1, bind_ok', e4, allocate, hc', if_true, e2, e3, Nat.mod_eq_of_lt h5]; rfl
    · simp [Buf.alloc]
  · intro hc
    have hc' : ¬ r.toNat * c.toNat ≤ cap := by omega
    simp only [MDense.new, e1, bind_ok', e4, allocate, hc', if_false]; rfl

theorem position_ideal {M : MDense R} (hM : M.Sound) {i j : Int} (hi : 0 ≤ i ∧ i < 2 ^ 64) (hj : 0 ≤ j ∧ j < 2 ^ 64) :
    M.position i j = (do
      assertThat (i.toNat < M.rows)
      assertThat (j.toNat < M.cols)
      return (View.plain M.ori M.rows M.cols).pos i.toNat j.toNat) := by
  unfold MDense.position
  rw [toSize_of hi.1 hi.2, toSize_of hj.1 hj.2]
  by_cases h1 : i.toNat < M.rows
  · by_cases h2 : j.toNat < M.cols
    · have hp : (View.plain M.ori M.rows M.cols).pos i.toNat j.toNat < M.rows * M.cols := by
        cases M.ori with
        | col => simp only [View.plain, View.pos]; nlinarith
        | row => simp only [View.plain, View.pos]; nlinarith
      have hp := lt_trans hp hM.2.2
      simp only [h1, h2, decide_true, assertThat, if_true, bind_ok']
      cases hO : M.ori with
      | col =>
        rw [hO] at hp
        simp only [View.plain, View.pos] at hp ⊢
        rw [Nat.mod_eq_of_lt hp]
      | row =>
        rw [hO] at hp
        simp only [View.plain, View.pos] at hp ⊢
        rw [Nat.mod_eq_of_lt hp]
    · simp [h1, h2, assertThat]
  · simp [h1, assertThat]

/-- C106, element access: with indices of the index type, in range or not, reading an element gives what
natural numbers would give (the element, or the failed assertion). -/
theorem C106_get (ix : Ix) (M : MDense R) (hM : M.Sound) (i j : Int) (hi : 0 ≤ i ∧ ix.Val i) (hj : 0 ≤ j ∧ ix.Val j) :
    M.get i j = M.ideal.get i.toNat j.toNat := by
  unfold MDense.get
  rw [position_ideal hM ⟨hi.1, ix_val_lt hi.2⟩ ⟨hj.1, ix_val_lt hj.2⟩]
  simp only [Dense.get, Dense.view, MDense.ideal, View.get, View.plain, Nat.zero_add, assertThat]
  by_cases h1 : i.toNat < M.rows
  · by_cases h2 : j.toNat < M.cols
    · simp [h1, h2]
    · simp [h1, h2]
  · simp [h1]

/-- C106, writing elements likewise. -/
theorem C106_set (ix : Ix) (M : MDense R) (hM : M.Sound) (i j : Int) (x : R) (hi : 0 ≤ i ∧ ix.Val i) (hj : 0 ≤ j ∧ ix.Val j) :
    (M.set i j x).map MDense.ideal = M.ideal.set i.toNat j.toNat x ∧ ∀ M', M.set i j x = .ok M' → M'.Sound := by
  unfold MDense.set
  rw [position_ideal hM ⟨hi.1, ix_val_lt hi.2⟩ ⟨hj.1, ix_val_lt hj.2⟩]
  simp only [Dense.set, Dense.view, MDense.ideal, View.set, View.plain, Nat.zero_add, assertThat]
  by_cases h1 : i.toNat < M.rows
  · by_cases h2 : j.toNat < M.cols
    · simp only [h1, h2, decide_true, if_true, bind_ok']
      rw [pure_ok', bind_ok']
      have hl : ∀ p d, M.data.write p x = .ok d → d.length = M.data.length := by
        intro p d e
        unfold Buf.write at e
        split at e
        · cases e; simp
        · cases e
      cases hw : M.data.write (View.pos { ori := M.ori, rows := M.rows, cols := M.cols, ldRows := M.rows, ldCols := M.cols, base := 0 } i.toNat j.toNat) x with
      | error f => exact ⟨rfl, fun M' e => by cases e⟩
      | ok d =>
        refine ⟨rfl, fun M' e => ?_⟩
        cases e
        exact ⟨by rw [← hM.1]; exact hl _ _ hw, hM.2⟩
    · simp [h1, h2, Except.map]
  · simp [h1, Except.map]

/-- C106, resizing. -/
theorem C106_resize_partial (ix : Ix) (cap : Nat) (M : MDense R) (hM : M.Sound) (r c : Int) (h : FitsIn ix r c) :
    (r * c ≤ cap → ∃ M', M.resize ix cap r c = .ok M' ∧ M'.Sound ∧ M'.ideal = M.ideal.resize r.toNat c.toNat) ∧
    (r * c > cap → r * c ≠ M.rows * M.cols → M.resize ix cap r c = .error (.throw "bad_alloc")) := by
  obtain ⟨e1, e2, e3, e4, h5, e6⟩ := h.facts
  constructor
  · intro hc
    have hc' : r.toNat * c.toNat ≤ cap := by omega
    refine ⟨⟨M.ori, r.toNat, c.toNat, r.toNat * c.toNat, Dense.resizeBuf M.data (r.toNat * c.toNat)⟩, ?_, ⟨?_, rfl, h5⟩, rfl⟩
    · simp only [MDense.resize, e1, bind_ok', e4, allocate, hc', if_true, e2, e3, Nat.mod_eq_of_lt h5, Dense.resizeBuf]
      split <;> rfl
    · show (Dense.resizeBuf M.data (r.toNat * c.toNat)).length = r.toNat * c.toNat
      unfold Dense.resizeBuf
      split
      · assumption
      · simp [Buf.alloc]
  · intro hc hne
    have hc' : ¬ r.toNat * c.toNat ≤ cap := by omega
    have hne' : ¬ M.data.length = r.toNat * c.toNat := by
      rw [hM.1]; intro e
      apply hne
      rw [← e6, ← e]; push_cast; rfl
    simp only [MDense.resize, e1, bind_ok', e4, allocate, hc', hne', if_false]; rfl

theorem fill_ideal {M : MDense R} (hM : M.Sound) (x : R) :
    (M.fill x).map MDense.ideal = M.ideal.fillAll x ∧ ∀ M', M.fill x = .ok M' → M'.Sound := by
  simp only [MDense.fill, Dense.fillAll, MDense.ideal, Dense.fillBuf_ok]
  refine ⟨rfl, fun M' e => ?_⟩
  cases e
  exact ⟨by show (List.replicate _ _).length = _; rw [List.length_replicate]; exact hM.1, hM.2⟩

/-- C106, histories: any sequence of resizes, writes, reads and fills with arguments within the limits does
what it does with natural numbers: same matrix, same values read, same faults (indices out of range). -/
theorem C106_history_partial (ix : Ix) (cap : Nat) (cs : List (Call R)) (hc : ∀ q ∈ cs, CallOk ix cap q) (M : MDense R)
    (hM : M.Sound) :
    (M.run ix cap cs).map (fun q => (q.1.ideal, q.2)) = idealRun cs M.ideal := by
  induction cs generalizing M with
  | nil => rfl
  | cons q cs ih =>
    have hq := hc q (by simp)
    have hc' : ∀ q ∈ cs, CallOk ix cap q := fun q h => hc q (by simp [h])
    cases q with
    | resize r c =>
      obtain ⟨M', e, hS, hi⟩ := (C106_resize_partial ix cap M hM r c hq.1).1 hq.2
      simp only [MDense.run, idealRun, e, bind_ok', ← hi]
      exact ih hc' M' hS
    | set i j x =>
      obtain ⟨h1, h2⟩ := C106_set ix M hM i j x hq.1 hq.2
      simp only [MDense.run, idealRun, ← h1]
      cases e : M.set i j x with
      | error f => rfl
      | ok M' => exact ih hc' M' (h2 M' e)
    | get i j =>
      simp only [MDense.run, idealRun, C106_get ix M hM i j hq.1 hq.2]
      cases e : M.ideal.get i.toNat j.toNat with
      | error f => rfl
      | ok x =>
        simp only [bind_ok', ← ih hc' M hM]
        cases e2 : M.run ix cap cs with
        | error f => rfl
        | ok p => rfl
    | fill x =>
      obtain ⟨h1, h2⟩ := fill_ideal hM x
      simp only [MDense.run, idealRun, ← h1]
      cases e : M.fill x with
      | error f => rfl
      | ok M' => exact ih hc' M' (h2 M' e)

/-- The indices of an `int` matrix: a negative index never passes the assertions. -/
theorem C106_negative_index_rejected (M : MDense R) (hM : M.rows < 2 ^ 63 ∧ M.cols < 2 ^ 63) (i j : Int)
    (hi : Ix.int.Val i) (hj : Ix.int.Val j) (hneg : i < 0 ∨ j < 0) : M.get i j = .error .assertFail := by
  have key : ∀ z : Int, Ix.int.Val z → z < 0 → 2 ^ 63 ≤ toSize z := by
    intro z hz h0
    simp only [Ix.Val] at hz
    unfold toSize
    have : z % 2 ^ 64 = z + 2 ^ 64 := by omega
    rw [this]; omega
  unfold MDense.get MDense.position
  by_cases h1 : toSize i < M.rows
  · have hi0 : ¬ i < 0 := fun h => by have := key i hi h; omega
    have h2 := key j hj (hneg.resolve_left hi0)
    have h3 : ¬ toSize j < M.cols := by omega
    simp [h1, h3, assertThat]
  · simp [h1, assertThat]

/-! ## Beyond the limits -/

theorem size_new {cap : Nat} (o : Ori) {r c : Nat} (hr : r < 2 ^ 64) (hc : c < 2 ^ 64) (hcap : (r * c) % 2 ^ 64 ≤ cap) :
    (MDense.new .size cap o r c : Res (MDense R)) =
      .ok ⟨o, r, c, (r * c) % 2 ^ 64, Buf.alloc ((r * c) % 2 ^ 64)⟩ := by
  have e1 : toSize (r : Int) = r := by rw [toSize_of (by omega) (by exact_mod_cast hr)]; simp
  have e2 : toSize (c : Int) = c := by rw [toSize_of (by omega) (by exact_mod_cast hc)]; simp
  have e3 : toSize (((r : Int) * c) % 2 ^ 64) = (r * c) % 2 ^ 64 := by
    unfold toSize
    rw [Int.emod_emod_of_dvd _ (dvd_refl _)]
    have : ((r : Int) * c) % 2 ^ 64 = ((r * c % 2 ^ 64 : Nat) : Int) := by push_cast; rfl
    rw [this]; exact Int.toNat_natCast _
  simp only [MDense.new, Ix.wrap, bind_ok', e3, e1, e2, allocate, hcap, if_true]; rfl

theorem pos_of {M : MDense R} {i j : Nat} (hr : M.rows < 2 ^ 64) (hc : M.cols < 2 ^ 64) (hi : i < M.rows) (hj : j < M.cols) :
    M.position i j = .ok ((View.plain M.ori M.rows M.cols).pos i j % 2 ^ 64) := by
  have e1 : toSize (i : Int) = i := by rw [toSize_of (by omega) (by omega)]; simp
  have e2 : toSize (j : Int) = j := by rw [toSize_of (by omega) (by omega)]; simp
  unfold MDense.position
  simp only [e1, e2, hi, hj, decide_true, assertThat, if_true, bind_ok']
  cases M.ori <;> rfl

/-- C106, negative: if the number of elements does not fit into `size_t`, construction of a matrix with the
default index type succeeds, but the array has fewer elements than the dimensions say: there are indices in
range whose access passes the assertions and is undefined, even after all elements of the array were set. -/
theorem C106_product_wraps (cap : Nat) (o : Ori) (r c : Nat) (hr : r < 2 ^ 64) (hc : c < 2 ^ 64) (hbig : 2 ^ 64 ≤ r * c)
    (hcap : (r * c) % 2 ^ 64 ≤ cap) (x : R) :
    ∃ M M' : MDense R, MDense.new .size cap o r c = .ok M ∧ M.rows = r ∧ M.cols = c ∧ M.data.length < r * c ∧
      M.fill x = .ok M' ∧ ∃ i j : Nat, i < r ∧ j < c ∧ M.get i j = .error .ub ∧ M'.get i j = .error .ub ∧
        M'.set i j x = .error .ub := by
  have hlt : r * c % 2 ^ 64 < r * c := lt_of_lt_of_le (Nat.mod_lt _ (by norm_num)) hbig
  obtain ⟨h1, h2, h3⟩ := Dense.unpos_spec o hlt
  set i := (Dense.unpos o r c (r * c % 2 ^ 64)).1 with hi
  set j := (Dense.unpos o r c (r * c % 2 ^ 64)).2 with hj
  have hm : r * c % 2 ^ 64 % 2 ^ 64 = r * c % 2 ^ 64 := Nat.mod_mod _ _
  let n := r * c % 2 ^ 64
  have p1 := pos_of (M := (⟨o, r, c, n, Buf.alloc n⟩ : MDense R)) hr hc h1 h2
  have p2 := pos_of (M := (⟨o, r, c, n, List.replicate n (some x)⟩ : MDense R)) hr hc h1 h2
  simp only [h3, hm] at p1 p2
  refine ⟨⟨o, r, c, n, Buf.alloc n⟩, ⟨o, r, c, n, List.replicate n (some x)⟩, size_new o hr hc hcap, rfl, rfl, ?_, ?_,
    i, j, h1, h2, ?_, ?_, ?_⟩
  · show (Buf.alloc n).length < _
    rw [Buf.alloc, List.length_replicate]; exact hlt
  · simp only [MDense.fill, Dense.fillBuf_ok, Buf.alloc, List.length_replicate]; rfl
  · simp only [MDense.get, p1, bind_ok']
    simp [Buf.read, Buf.alloc, n]
  · simp only [MDense.get, p2, bind_ok']
    simp [Buf.read, n]
  · simp only [MDense.set, p2, bind_ok']
    simp [Buf.write, n]

/-- C106, negative: a matrix of 2^32 by 2^32 elements is built without an array: every access is undefined. -/
theorem C106_no_array_at_all (cap : Nat) (o : Ori) :
    ∃ M : MDense R, MDense.new .size cap o (2 ^ 32) (2 ^ 32) = .ok M ∧ M.rows = 2 ^ 32 ∧ M.cols = 2 ^ 32 ∧
      ∀ i j : Nat, i < 2 ^ 32 → j < 2 ^ 32 → M.get i j = .error .ub := by
  have e := size_new (R := R) (cap := cap) o (r := 2 ^ 32) (c := 2 ^ 32) (by norm_num) (by norm_num) (by norm_num)
  refine ⟨⟨o, 2 ^ 32, 2 ^ 32, 0, []⟩, ?_, rfl, rfl, ?_⟩
  · have h0 : (2 ^ 32 * 2 ^ 32 : Nat) % 2 ^ 64 = 0 := by norm_num
    rw [h0] at e
    exact_mod_cast e
  · intro i j hi hj
    have := pos_of (M := (⟨o, 2 ^ 32, 2 ^ 32, 0, []⟩ : MDense R)) (by norm_num) (by norm_num) hi hj
    simp only [MDense.get, this, bind_ok']
    simp [Buf.read]

/-- C106, negative: if the number of elements is larger than 2^64 (and no multiple of it), two different
elements share a cell: after writing one, the other one reads the same value. -/
theorem C106_elements_share_a_cell (cap : Nat) (o : Ori) (r c : Nat) (hr : r < 2 ^ 64) (hc : c < 2 ^ 64)
    (hbig : 2 ^ 64 < r * c) (hmod : 0 < (r * c) % 2 ^ 64) (hcap : (r * c) % 2 ^ 64 ≤ cap) (x : R) :
    ∃ (M M' : MDense R) (i j : Nat), MDense.new .size cap o r c = .ok M ∧ i < r ∧ j < c ∧ (i, j) ≠ (0, 0) ∧
      M.set i j x = .ok M' ∧ M'.get 0 0 = .ok x := by
  obtain ⟨h1, h2, h3⟩ := Dense.unpos_spec o hbig
  set i := (Dense.unpos o r c (2 ^ 64)).1 with hi
  set j := (Dense.unpos o r c (2 ^ 64)).2 with hj
  let n := r * c % 2 ^ 64
  have hr0 : 0 < r := by rcases Nat.eq_zero_or_pos r with h | h; · subst h; omega
                         · exact h
  have hc0 : 0 < c := by rcases Nat.eq_zero_or_pos c with h | h; · subst h; omega
                         · exact h
  have hw : (Buf.alloc n : Buf R).write 0 x = .ok ((Buf.alloc n).set 0 (some x)) := by
    have : 0 < (Buf.alloc n : Buf R).length := by rw [Buf.alloc, List.length_replicate]; exact hmod
    simp only [Buf.write, this, if_true]
  have p1 := pos_of (M := (⟨o, r, c, n, Buf.alloc n⟩ : MDense R)) hr hc h1 h2
  have p2 := pos_of (M := (⟨o, r, c, n, (Buf.alloc n).set 0 (some x)⟩ : MDense R)) (i := 0) (j := 0) hr hc hr0 hc0
  have z0 : (View.plain o r c).pos 0 0 = 0 := by cases o <;> simp [View.plain, View.pos]
  simp only [h3, Nat.mod_self] at p1
  simp only [z0, Nat.zero_mod] at p2
  refine ⟨⟨o, r, c, n, Buf.alloc n⟩, ⟨o, r, c, n, (Buf.alloc n).set 0 (some x)⟩, i, j, size_new o hr hc hcap, h1, h2, ?_, ?_, ?_⟩
  · intro he
    simp only [Prod.mk.injEq] at he
    rw [he.1, he.2, z0] at h3
    norm_num at h3
  · simp only [MDense.set, p1, bind_ok', hw]; rfl
  · have p2' : MDense.position (⟨o, r, c, n, (Buf.alloc n).set 0 (some x)⟩ : MDense R) 0 0 = .ok 0 := p2
    simp only [MDense.get, p2', bind_ok']
    have : ((Buf.alloc n : Buf R).set 0 (some x))[0]? = some (some x) := by
      rw [List.getElem?_set_self (by rw [Buf.alloc, List.length_replicate]; exact hmod)]
    simp [Buf.read, this]

/-- C106, negative, index type `int`: if the number of elements does not fit into `int`, construction and
resizing are undefined, although each dimension is a valid `int`. -/
theorem C106_int_product_overflows (cap : Nat) (o : Ori) (r c : Int) (h : 2 ^ 31 - 1 < r * c) (M : MDense R) :
    (MDense.new .int cap o r c : Res (MDense R)) = .error .ub ∧ M.resize .int cap r c = .error .ub := by
  have : ¬ (-(2 ^ 31) ≤ r * c ∧ r * c ≤ 2 ^ 31 - 1) := by omega
  constructor
  · simp only [MDense.new, Ix.wrap, this, if_false]; rfl
  · simp only [MDense.resize, Ix.wrap, this, if_false]; rfl

/-- C106, negative, index type `int`: two negative dimensions are accepted.  The matrix reports more than
2^63 rows and columns and has `r * c` elements. -/
theorem C106_negative_dimensions_accepted (cap : Nat) (o : Ori) (r c : Int) (hr : Ix.int.Val r) (hc : Ix.int.Val c)
    (hr0 : r < 0) (hc0 : c < 0) (hrc : r * c ≤ 2 ^ 31 - 1) (hcap : r * c ≤ cap) :
    ∃ M : MDense R, MDense.new .int cap o r c = .ok M ∧ (M.rows : Int) = 2 ^ 64 + r ∧ (M.cols : Int) = 2 ^ 64 + c ∧
      (M.data.length : Int) = r * c ∧ ∃ i j : Nat, i < M.rows ∧ j < M.cols ∧ M.get i j = .error .ub := by
  have h0 : 0 < r * c := mul_pos_of_neg_of_neg hr0 hc0
  simp only [Ix.Val] at hr hc
  have e1 : toSize (r * c) = (r * c).toNat := toSize_of (by omega) (by omega)
  have er : toSize r = (2 ^ 64 + r).toNat := by unfold toSize; rw [show r % 2 ^ 64 = 2 ^ 64 + r by omega]
  have ec : toSize c = (2 ^ 64 + c).toNat := by unfold toSize; rw [show c % 2 ^ 64 = 2 ^ 64 + c by omega]
  have hle : (r * c).toNat ≤ cap := by omega
  let n := (r * c).toNat
  let M : MDense R := ⟨o, toSize r, toSize c, (toSize r * toSize c) % 2 ^ 64, Buf.alloc n⟩
  have hMr : M.rows = (2 ^ 64 + r).toNat := er
  have hMc : M.cols = (2 ^ 64 + c).toNat := ec
  have hlt : n < M.rows * M.cols := by
    have a1 : n < M.rows := by rw [hMr]; show (r * c).toNat < _; omega
    have a2 : 0 < M.cols := by rw [hMc]; omega
    exact lt_of_lt_of_le a1 (Nat.le_mul_of_pos_right _ a2)
  obtain ⟨h1, h2, h3⟩ := Dense.unpos_spec o hlt
  have p1 := pos_of (M := M) (by rw [hMr]; omega) (by rw [hMc]; omega) h1 h2
  have h3' : (View.plain M.ori M.rows M.cols).pos (Dense.unpos o M.rows M.cols n).1 (Dense.unpos o M.rows M.cols n).2 = n := h3
  rw [h3', Nat.mod_eq_of_lt (show n < 2 ^ 64 by show (r * c).toNat < _; omega)] at p1
  refine ⟨M, ?_, by rw [hMr]; omega, by rw [hMc]; omega, ?_, _, _, h1, h2, ?_⟩
  · have : -(2 ^ 31) ≤ r * c ∧ r * c ≤ 2 ^ 31 - 1 := ⟨by omega, hrc⟩
    simp only [MDense.new, Ix.wrap, this, and_self, if_true, bind_ok', e1, allocate, hle]; rfl
  · show ((Buf.alloc n : Buf R).length : Int) = _
    simp only [Buf.alloc, List.length_replicate, n]; omega
  · simp only [MDense.get, p1, bind_ok']
    simp [Buf.read, Buf.alloc, M]

/-! ## Submatrices and sparse matrices -/

/-- C106, submatrices: inside a parent whose number of elements fits into the index type, positions of a
submatrix are computed without overflow. -/
theorem C106_submatrix_position (ix : Ix) (prows pcols rows cols : Nat) (hp : ix.Val (prows * pcols : Int)) (i j : Nat)
    (hi : i < rows) (hj : j < cols) (hr : rows ≤ prows) (hc : cols ≤ pcols) :
    subPosition ix rows cols prows i j = .ok (i + j * prows) := by
  have hlt : i + j * prows < prows * pcols := by nlinarith
  have hb := ix_val_lt hp
  have hb' : prows * pcols < 2 ^ 64 := by exact_mod_cast hb
  have hval : ∀ n : Nat, n ≤ prows * pcols → ix.Val (n : Int) := by
    intro n hn
    have : (n : Int) ≤ (prows * pcols : Int) := by exact_mod_cast hn
    cases ix <;> simp only [Ix.Val] at hp ⊢ <;> omega
  have hi' : i < 2 ^ 64 := by
    have : i ≤ i + j * prows := Nat.le_add_right _ _
    omega
  have hj' : j < 2 ^ 64 := by
    have : j < pcols := by omega
    have : 0 < prows := by omega
    have : pcols ≤ prows * pcols := Nat.le_mul_of_pos_left _ this
    omega
  have e1 : toSize (i : Int) = i := by rw [toSize_of (by omega) (by exact_mod_cast hi')]; simp
  have e2 : toSize (j : Int) = j := by rw [toSize_of (by omega) (by exact_mod_cast hj')]; simp
  have w1 : ix.wrap ((j : Int) * prows) = .ok ((j * prows : Nat) : Int) := by
    have := ix_wrap_of (hval (j * prows) (by omega))
    push_cast at this ⊢; exact this
  have w2 : ix.wrap ((i : Int) + ((j * prows : Nat) : Int)) = .ok ((i + j * prows : Nat) : Int) := by
    have := ix_wrap_of (hval (i + j * prows) (by omega))
    push_cast at this ⊢; exact this
  have e3 : toSize ((i + j * prows : Nat) : Int) = i + j * prows := by
    rw [toSize_of (by omega) (by have : i + j * prows < 2 ^ 64 := by omega
                                 exact_mod_cast this)]
    exact Int.toNat_natCast _
  simp only [subPosition, e1, e2, hi, hj, decide_true, assertThat, if_true, bind_ok', w1, w2, e3]; rfl

/-- C106, negative: an `int` submatrix of a large `size_t` matrix: an access in range overflows. -/
theorem C106_int_submatrix_overflows :
    subPosition .int 2 40000 100000 1 30000 = .error .ub := by decide

/-- C106, sparse matrices: with an explicit number of elements the constructor is fine for any dimensions
(as long as the number of columns is not the largest one) … -/
theorem C106_sparse_construct (ix : Ix) (r c nnz : Int) (hn : 0 < nnz) (hv : ix.Val nnz) (hc0 : 0 ≤ c) (hc : ix.Val (c + 1)) :
    sparseSizes ix r c nnz = .ok (nnz.toNat, (c + 1).toNat) := by
  have h : nnz ≠ 0 := by omega
  simp only [sparseSizes, h, ne_eq, not_false_eq_true, if_true, pure_ok', bind_ok', ix_wrap_of hc,
    toSize_of (le_of_lt hn) (ix_val_lt hv), toSize_of (show 0 ≤ c + 1 by omega) (ix_val_lt hc)]

/-- C106, negative: … but with the index type `int`, resizing to the same dimensions and number of elements
is undefined when rows times columns does not fit into `int`, although this product is not needed. -/
theorem C106_sparse_resize_overflows (r c nnz : Int) (h : 2 ^ 31 - 1 < r * c) :
    sparseResizeSizes .int r c nnz = .error .ub := by
  have : ¬ (-(2 ^ 31) ≤ r * c ∧ r * c ≤ 2 ^ 31 - 1) := by omega
  simp only [sparseResizeSizes, Ix.wrap, this, if_false]; rfl

/-- C106, sparse resize within the limits agrees with the constructor. -/
theorem C106_sparse_resize (ix : Ix) (r c nnz : Int) (h : FitsIn ix r c) :
    sparseResizeSizes ix r c nnz = sparseSizes ix r c nnz := by
  obtain ⟨e1, -⟩ := h.facts
  simp only [sparseResizeSizes, sparseSizes, e1, bind_ok', pure_ok']
  split <;> rfl

/-! ## The hypotheses are met -/

example : FitsIn .size (2 ^ 33) (2 ^ 30) ∧ FitsIn .int 40000 50000 ∧ ¬ FitsIn .int 50000 50000 := by
  simp only [FitsIn, Ix.Val]; norm_num

/-- A history within the limits, and what it reads. -/
example : ∃ M : MDense Int, MDense.new .int 100 .col 2 2 = .ok M ∧ M.Sound ∧
    (M.run .int 100 [.fill 0, .set 1 1 7, .get 1 1, .resize 3 1, .fill 4, .get 2 0]).map (·.2) = .ok [7, 4] ∧
    M.run .int 100 [.fill 0, .get 1 (-1)] = .error .assertFail :=
  ⟨_, rfl, by unfold MDense.Sound; decide, rfl, rfl⟩

/-- Dimensions for the negative theorems. -/
example : (2 ^ 63 : Nat) < 2 ^ 64 ∧ (3 : Nat) < 2 ^ 64 ∧ 2 ^ 64 < (2 ^ 63 * 3 : Nat) ∧ 0 < (2 ^ 63 * 3) % 2 ^ 64 ∧
    Ix.int.Val 60000 ∧ (2 ^ 31 - 1 : Int) < 60000 * 60000 ∧ Ix.int.Val (-3) := by
  simp only [Ix.Val]; norm_num

example : ∃ M : MDense Int, MDense.new .int 100 .col (-2) (-3) = .ok M ∧ M.data.length = 6 := ⟨_, rfl, rfl⟩

end BB
