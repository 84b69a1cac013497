import Verif.Props.Square

/-!
# C62: transposing row-major sparse matrices, exactly
-/

namespace BB

variable {R : Type}

namespace Sparse

theorem loopN_split {σ : Type} (m n : Nat) (f : Nat → σ → Res σ) (s : σ) :
    loopN (m + n) f s = (loopN m f s >>= loopN n (fun i => f (m + i))) := by
  induction n with
  | zero => cases loopN m f s <;> simp [loopN]
  | succ n ih =>
    rw [← Nat.add_assoc, loopN, ih]
    cases loopN m f s <;> rfl

theorem forRun_congr {σ : Type} (S S' : Sparse R) (q : Nat) (hk : S'.key = S.key) (hv : S'.value = S.value)
    (h1 : S'.offset[q]? = S.offset[q]?) (h2 : S'.offset[q + 1]? = S.offset[q + 1]?) (body : Nat → R → σ → Res σ) (s : σ) :
    S'.forRun q body s = S.forRun q body s := by
  unfold forRun Buf.read
  rw [h1, h2, hk, hv]

/-- Trailing empty runs add nothing to the dense matrix. -/
theorem toDense_pad {T : Type} [Zero T] (cvt : R → T) (o : Ori) (S : Sparse R) (n d x : Nat) (hn : S.offset.length = n + 1)
    (hx : S.offset[n]? = some (some x)) :
    ({ S with offset := S.offset ++ List.replicate d (some x) } : Sparse R).toDense cvt o = S.toDense cvt o := by
  have get : ∀ p, n ≤ p → p ≤ n + d → (S.offset ++ List.replicate d (some x))[p]? = some (some x) := by
    intro p h1 h2
    by_cases hp : p = n
    · subst hp
      rw [List.getElem?_append_left (by omega), hx]
    · rw [List.getElem?_append_right (by omega), List.getElem?_replicate, if_pos (by omega)]
  have low : ∀ p, p ≤ n → (S.offset ++ List.replicate d (some x))[p]? = S.offset[p]? := by
    intro p h
    rw [List.getElem?_append_left (by omega)]
  unfold toDense
  rw [Dense.fillBuf_ok]
  simp only [bind_ok']
  unfold forRuns
  simp only [List.length_append, List.length_replicate, hn]
  rw [if_neg (by omega), if_neg (by omega), Nat.add_sub_cancel, ptrLoop_eq _ (n + d) 0 _ 1 _ (by omega) (by omega), ptrLoop_eq _ n 0 n 1 _ (by omega) (by omega),
    loopN_split]
  simp only [Nat.zero_add, Nat.mul_one]
  have e1 : ∀ (F : Nat → Nat × Buf T → Nat → R → Buf T → Res (Buf T)) (G : Nat × Buf T → Buf T → Nat × Buf T) (s : Nat × Buf T),
      loopN n (fun q s => (({ S with offset := S.offset ++ List.replicate d (some x) } : Sparse R).forRun q (F q s) s.2) >>= fun D => pure (G s D)) s =
      loopN n (fun q s => (S.forRun q (F q s) s.2) >>= fun D => pure (G s D)) s := by
    intro F G s
    refine loopN_congr fun q s hq => ?_
    rw [forRun_congr S { S with offset := S.offset ++ List.replicate d (some x) } q rfl rfl (low q (by omega)) (low (q + 1) (by omega))]
  have e2 : ∀ (F : Nat → Nat × Buf T → Nat → R → Buf T → Res (Buf T)) (G : Nat × Buf T → Buf T → Nat × Buf T) (hG : ∀ s D, (G s D).2 = D) (s : Nat × Buf T),
      ∃ s', loopN d (fun q s => (({ S with offset := S.offset ++ List.replicate d (some x) } : Sparse R).forRun (n + q) (F (n + q) s) s.2) >>= fun D => pure (G s D)) s =
        .ok s' ∧ s'.2 = s.2 := by
    intro F G hG s
    refine Sat.loop (fun _ (t : Nat × Buf T) => t.2 = s.2) rfl ?_
    intro q t hq ht
    have : ∀ body, ({ S with offset := S.offset ++ List.replicate d (some x) } : Sparse R).forRun (n + q) body t.2 = .ok t.2 := by
      intro body
      unfold forRun
      rw [Buf.read_ok.mpr (get (n + q) (by omega) (by omega)), Buf.read_ok.mpr (get (n + q + 1) (by omega) (by omega))]
      simp only [bind_ok']
      rw [ptrLoop_eq _ 0 x x 1 _ (by omega) (by omega)]
      rfl
    rw [this]
    exact ⟨_, rfl, (hG t t.2).trans ht⟩
  have f1 := e1 (fun q s k x d => if S.ori = o then d.write (s.1 + k) (cvt x) else d.write (s.1 + k * (Dim.mk' S.dim.rows S.dim.cols).major o) (cvt x))
    (fun s D => (if S.ori = o then s.1 + (Dim.mk' S.dim.rows S.dim.cols).major o else s.1 + 1, D))
  have f2 := e2 (fun q s k x d => if S.ori = o then d.write (s.1 + k) (cvt x) else d.write (s.1 + k * (Dim.mk' S.dim.rows S.dim.cols).major o) (cvt x))
    (fun s D => (if S.ori = o then s.1 + (Dim.mk' S.dim.rows S.dim.cols).major o else s.1 + 1, D)) (fun _ _ => rfl)
  rw [f1]
  generalize loopN n _ _ = X
  cases X with
  | error => rfl
  | ok s =>
    obtain ⟨s', e, h⟩ := f2 s
    rw [bind_ok', e]
    simp only [bind_ok', h]

/-- A stored key at or above the number of rows: the counting sort of a row-major matrix leaves its array of offsets. -/
theorem transpose_ub {S : Sparse R} {r c : Nat} {L : List (List (Nat × R))} (h : S.Valid r c L)
    (hbad : ∃ run ∈ L, ∃ e ∈ run, r ≤ e.1) : S.transpose = .error .ub := by
  apply OrUb.false
  unfold transpose
  simp only [Dense.fillBuf_ok, new, Buf.length_alloc, bind_ok', h.cols, h.rows]
  refine OrUb.bind (P := fun _ => False) ?_ fun _ h => h.elim
  refine (orUb_forRuns S h.offsLen _ _ (fun q (off : Buf Nat) => off.length = r + 1 ∧ ∀ q' run, q' < q → L[q']? = some run → ∀ e ∈ run, e.1 < r)
    ⟨by simp, fun q' run h => by omega⟩ ?_).mono ?_
  · rintro q off hq ⟨h1, h2⟩
    have hqr : L[q]? = some L[q] := List.getElem?_eq_getElem hq
    generalize L[q] = run at hqr
    rw [h.readOff (by omega), bind_ok', h.readOff (by omega), bind_ok', take_succ_flatten_length L q run hqr,
      ptrLoop_eq _ run.length _ _ 1 _ (by omega) (by omega)]
    refine (OrUb.loop (fun t (off : Buf Nat) => off.length = r + 1 ∧ ∀ u e, u < t → run[u]? = some e → e.1 < r) ⟨h1, fun u e h => by omega⟩ ?_).mono ?_
    · rintro t off ht ⟨h1, h3⟩
      have hte : run[t]? = some run[t] := List.getElem?_eq_getElem ht
      generalize run[t] = e at hte
      simp only [Nat.mul_one]
      rw [(h.readKey hqr hte).1, bind_ok']
      by_cases hk : e.1 < r
      · refine (Buf.orUb_read _ _).next fun n => (Buf.orUb_write _ _ _).mono fun off' ho => ⟨ho.2.trans h1, fun u e' hu he' => ?_⟩
        by_cases hut : u = t
        · subst hut
          rw [hte] at he'
          cases he'
          exact hk
        · exact h3 u e' (by omega) he'
      · right
        have : off.read (e.1 + 1) = .error .ub := by
          unfold Buf.read
          rw [List.getElem?_eq_none (by omega)]
        rw [this]; rfl
    · rintro off' ⟨h1, h3⟩
      refine ⟨h1, fun q' run' hq' hr' e he => ?_⟩
      by_cases hqq : q' = q
      · subst hqq
        rw [hqr] at hr'
        cases hr'
        obtain ⟨u, hu, rfl⟩ := List.mem_iff_getElem.mp he
        exact h3 u _ hu (List.getElem?_eq_getElem hu)
      · exact h2 q' run' (by omega) hr' e he
  · rintro off ⟨-, h2⟩
    obtain ⟨run, hrun, e, he, hr⟩ := hbad
    obtain ⟨q, hq, rfl⟩ := List.mem_iff_getElem.mp hrun
    have := h2 q _ hq (List.getElem?_eq_getElem hq) e he
    omega

theorem trq_empty {L : List (List (Nat × R))} {r : Nat} (h : ∀ run ∈ L, ∀ e ∈ run, e.1 < r) (n k : Nat) (hk : r ≤ k) : trq L n k = [] := by
  unfold trq
  rw [List.flatMap_eq_nil_iff]
  intro q _
  rw [List.map_eq_nil_iff, List.filter_eq_nil_iff]
  intro e he
  have hmem : L.getD q [] ∈ L := by
    by_cases hq : q < L.length
    · simp only [List.getD, List.getElem?_eq_getElem hq, Option.getD_some]
      exact List.getElem_mem hq
    · simp only [List.getD, List.getElem?_eq_none (Nat.le_of_not_lt hq), Option.getD_none] at he
      cases he
  have := h _ hmem e he
  simp only [beq_iff_eq]
  omega

theorem trans_pad {L : List (List (Nat × R))} {r : Nat} (h : ∀ run ∈ L, ∀ e ∈ run, e.1 < r) (d : Nat) :
    trans L (r + d) = trans L r ++ List.replicate d [] := by
  unfold trans
  rw [List.range_add, List.map_append, List.map_map]
  congr 1
  refine List.eq_replicate_iff.mpr ⟨by simp, ?_⟩
  intro b hb
  simp only [List.mem_map, List.mem_range, Function.comp] at hb
  obtain ⟨k, -, rfl⟩ := hb
  exact trq_empty h _ _ (by omega)

theorem flatten_replicate_nil {α : Type} (d : Nat) : (List.replicate d ([] : List α)).flatten = [] := by
  induction d with
  | zero => rfl
  | succ d ih => rw [List.replicate_succ, List.flatten_cons, ih]; rfl

end Sparse

/-- C62, transposition of row-major sparse matrices, exactly (`L` lists the stored columns and values, row after row).  If every stored
element lies in one of the first `r` columns (r the number of *rows*), the transposed matrix reads back correctly; if one does not, the
call leaves its array of offsets.  Square matrices always satisfy the first condition, see `C13_sparse_transpose`. -/
theorem C62_row_major_transpose_exact [Zero R] (S : Sparse R) (r c : Nat) (L : List (List (Nat × R))) (hS : S.Valid r c L) (oS : S.ori = .row)
    (hr : 0 < r) (hc : 0 < c) :
    ((∀ run ∈ L, ∀ e ∈ run, e.1 < r) → ∃ T, S.transpose = .ok T ∧ T.ori = .row ∧ T.dim.rows = c ∧ T.dim.cols = r ∧
      ∀ o, ∃ D, T.toDense id o = .ok D ∧ D.ori = o ∧ D.Is c r (fun j i => entryAt (L.getD i []) j)) ∧
    ((∃ run ∈ L, ∃ e ∈ run, r ≤ e.1) → S.transpose = .error .ub) := by
  refine ⟨fun hb => ?_, Sparse.transpose_ub hS⟩
  obtain ⟨T, e, t⟩ := Sparse.transpose_core hS hb hr
  refine ⟨T, e, t.ori.trans oS, by rw [t.dim]; rfl, by rw [t.dim]; rfl, ?_⟩
  have hLl : L.length = r := by rw [hS.runs, oS]; rfl
  have hbc : ∀ run ∈ L, ∀ e ∈ run, e.1 < c := by
    intro run h1 e h2
    have := hS.bound run h1 e h2
    rw [oS] at this
    exact this
  -- the same matrix with exactly c runs
  have key : ∃ U : Sparse R, U.Valid c r (Sparse.trans L c) ∧ U.ori = .row ∧ ∀ o, T.toDense id o = U.toDense id o := by
    have offs := t.offs
    have offsLen := t.offsLen
    rw [Sparse.trans_length] at offs offsLen
    have bnd : ∀ run ∈ Sparse.trans L c, ∀ e ∈ run, e.1 < Ori.row.majorIx c r := by
      have := Sparse.trans_bound hS c
      rwa [oS] at this
    rcases Nat.le_total r c with hrc | hrc
    · -- pad
      obtain ⟨d, rfl⟩ : ∃ d, c = r + d := ⟨c - r, by omega⟩
      have et := Sparse.trans_pad hb d
      have ef : (Sparse.trans L (r + d)).flatten = (Sparse.trans L r).flatten := by
        rw [et, List.flatten_append, Sparse.flatten_replicate_nil, List.append_nil]
      refine ⟨{ T with offset := T.offset ++ List.replicate d (some (Sparse.trans L r).flatten.length) }, ?_, t.ori.trans oS, ?_⟩
      · refine ⟨by rw [t.dim]; rfl, by rw [t.dim]; rfl, by rw [t.dim]; rfl, ?_, ?_, ?_, t.keyLen, by rw [ef]; exact t.cells, ?_, Sparse.trans_sorted hS _⟩
        · show _ = T.ori.minorIx _ _
          rw [Sparse.trans_length, t.ori, oS]; rfl
        · simp only [List.length_append, offsLen, List.length_replicate, Sparse.trans_length]; omega
        · intro q hq
          rw [Sparse.trans_length] at hq
          by_cases h : q ≤ r
          · show (T.offset ++ _)[q]? = _
            rw [List.getElem?_append_left (by omega), offs q h, et, List.take_append_of_le_length (by rw [Sparse.trans_length]; exact h)]
          · show (T.offset ++ _)[q]? = _
            rw [List.getElem?_append_right (by omega), List.getElem?_replicate, if_pos (by omega), et, List.take_append,
              List.take_of_length_le (by rw [Sparse.trans_length]; omega), List.take_replicate, List.flatten_append, Sparse.flatten_replicate_nil,
              List.append_nil]
        · show ∀ run ∈ _, ∀ e : Nat × R, e ∈ run → e.1 < T.ori.majorIx _ _
          rw [t.ori, oS]; exact bnd
      · intro o
        refine (Sparse.toDense_pad id o T r d _ offsLen ?_).symm
        rw [offs r (Nat.le_refl _), List.take_of_length_le (by rw [Sparse.trans_length])]
    · -- cut
      obtain ⟨d, rfl⟩ : ∃ d, r = c + d := ⟨r - c, by omega⟩
      have et := Sparse.trans_pad hbc d
      have ef : (Sparse.trans L (c + d)).flatten = (Sparse.trans L c).flatten := by
        rw [et, List.flatten_append, Sparse.flatten_replicate_nil, List.append_nil]
      have hoff : T.offset = T.offset.take (c + 1) ++ List.replicate d (some (Sparse.trans L c).flatten.length) := by
        apply List.ext_getElem?
        intro q
        by_cases h : q < c + 1
        · rw [List.getElem?_append_left (by rw [List.length_take]; omega), List.getElem?_take_of_lt h]
        · rw [List.getElem?_append_right (by rw [List.length_take]; omega), List.length_take, List.getElem?_replicate]
          by_cases h2 : q ≤ c + d
          · rw [if_pos (by omega), offs q h2, et, List.take_append, List.take_of_length_le (by rw [Sparse.trans_length]; omega), List.take_replicate,
              List.flatten_append, Sparse.flatten_replicate_nil, List.append_nil]
          · rw [if_neg (by omega), List.getElem?_eq_none (by omega)]
      have cutLen : (T.offset.take (c + 1)).length = c + 1 := by rw [List.length_take]; omega
      have cutOff : ∀ q, q ≤ c → (T.offset.take (c + 1))[q]? = some (some ((Sparse.trans L c).take q).flatten.length) := by
        intro q hq
        rw [List.getElem?_take_of_lt (by omega), offs q (by omega), et, List.take_append_of_le_length (by rw [Sparse.trans_length]; exact hq)]
      refine ⟨{ T with offset := T.offset.take (c + 1) }, ?_, t.ori.trans oS, ?_⟩
      · refine ⟨by rw [t.dim]; rfl, by rw [t.dim]; rfl, by rw [t.dim]; rfl, ?_, ?_, ?_, t.keyLen, by rw [← ef]; exact t.cells, ?_, Sparse.trans_sorted hS _⟩
        · show _ = T.ori.minorIx _ _
          rw [Sparse.trans_length, t.ori, oS]; rfl
        · rw [Sparse.trans_length]; exact cutLen
        · intro q hq
          rw [Sparse.trans_length] at hq
          exact cutOff q hq
        · show ∀ run ∈ _, ∀ e : Nat × R, e ∈ run → e.1 < T.ori.majorIx _ _
          rw [t.ori, oS]; exact bnd
      · intro o
        have := Sparse.toDense_pad id o { T with offset := T.offset.take (c + 1) } c d (Sparse.trans L c).flatten.length cutLen (by
          show (T.offset.take (c + 1))[c]? = _
          rw [cutOff c (Nat.le_refl _), List.take_of_length_le (by rw [Sparse.trans_length])])
        rw [← this]
        show T.toDense id o = ({ T with offset := T.offset.take (c + 1) ++ List.replicate d _ } : Sparse R).toDense id o
        rw [← hoff]
  obtain ⟨U, hU, oU, hD⟩ := key
  intro o
  rw [hD o]
  obtain ⟨D, eD, h1, h2⟩ := Sparse.toDense_valid id rfl o hU
  refine ⟨D, eD, h1, h2.congr ?_⟩
  intro j i hj hi
  rw [oU]
  show entryAt ((Sparse.trans L c).getD j []) i = entryAt (L.getD i []) j
  have : (Sparse.trans L c).getD j [] = Sparse.trq L L.length j := by simp [Sparse.trans, List.getD, hj]
  rw [this, Sparse.entryAt_trq, if_pos (by omega)]

/-- Non-vacuity: a 2×3 row-major matrix [[0,5,0],[7,0,0]]; adding an element in the third column makes the transposition undefined. -/
example :
    (⟨.row, Dim.mk' 2 3, [some 5, some 7], [some 1, some 0], [some 0, some 1, some 2]⟩ : Sparse Int).Valid 2 3 [[(1, 5)], [(0, 7)]] ∧
    (⟨.row, Dim.mk' 2 3, [some 5, some 7], [some 2, some 0], [some 0, some 1, some 2]⟩ : Sparse Int).Valid 2 3 [[(2, 5)], [(0, 7)]] := by
  constructor <;> refine ⟨rfl, rfl, rfl, rfl, rfl, ?_, rfl, ?_, by decide, by decide⟩
  · intro q hq
    have : q = 0 ∨ q = 1 ∨ q = 2 := by simp at hq; omega
    rcases this with rfl | rfl | rfl <;> rfl
  · intro p e h
    match p with
    | 0 => cases h; exact ⟨rfl, rfl⟩
    | 1 => cases h; exact ⟨rfl, rfl⟩
    | p + 2 => simp at h
  · intro q hq
    have : q = 0 ∨ q = 1 ∨ q = 2 := by simp at hq; omega
    rcases this with rfl | rfl | rfl <;> rfl
  · intro p e h
    match p with
    | 0 => cases h; exact ⟨rfl, rfl⟩
    | 1 => cases h; exact ⟨rfl, rfl⟩
    | p + 2 => simp at h

end BB
