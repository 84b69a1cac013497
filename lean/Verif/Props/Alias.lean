import Verif.Lemmas.Alias

/-! C72: in-place operations whose operands share memory. -/

namespace BB.Alias

variable {R : Type}

/-- What `sub1 op= sub2` should do to the parent matrix `F`: the cells of the window at `(r1,c1)` are combined
with the OLD values of the corresponding cells of the window at `(r2,c2)`; all other cells stay. -/
def assigned (op : R → R → R) (F : Nat → Nat → R) (nr nc r1 c1 r2 c2 : Nat) (I J : Nat) : R :=
  if r1 ≤ I ∧ I < r1 + nr ∧ c1 ≤ J ∧ J < c1 + nc then op (F I J) (F (I - r1 + r2) (J - c1 + c2)) else F I J

/-- No cell of the matrix lies in both windows. -/
def Disjoint' (nr nc r1 c1 r2 c2 : Nat) : Prop :=
  ¬ ∃ I J, (r1 ≤ I ∧ I < r1 + nr ∧ c1 ≤ J ∧ J < c1 + nc) ∧ (r2 ≤ I ∧ I < r2 + nr ∧ c2 ≤ J ∧ J < c2 + nc)

/-- The memory a column-major matrix denotes. -/
def mem (F : Nat → Nat → R) (pr : Nat) (x : Nat) : R := F (x % pr) (x / pr)

theorem mem_at (F : Nat → Nat → R) {pr I : Nat} (J : Nat) (h : I < pr) : mem F pr (I + J * pr) = F I J := by
  unfold mem
  rw [Nat.add_mul_mod_self_right, Nat.mod_eq_of_lt h, Nat.add_mul_div_right _ _ (by omega), Nat.div_eq_of_lt h, Nat.zero_add]

theorem holds_of_is {A : Dense R} {pr pc : Nat} {F : Nat → Nat → R} (h : A.Is pr pc F) (ho : A.ori = .col) :
    Holds A.data (pr * pc) (mem F pr) := by
  refine ⟨h.alloc, fun x hx => ?_⟩
  have := h.raw hx
  rw [Buf.read_ok, ho] at this
  exact this

theorem is_of_holds {A : Dense R} {pr pc : Nat} {F : Nat → Nat → R} (h : A.Is pr pc F) (ho : A.ori = .col) {d : Buf R} {m : Nat → R}
    (hd : Holds d (pr * pc) m) : ({ A with data := d } : Dense R).Is pr pc (fun I J => m (I + J * pr)) := by
  have hdim : A.dim = Dim.mk' pr pc := by
    have h1 := h.rows; have h2 := h.cols; have h3 := h.size
    cases hd : A.dim; simp [hd, Dim.mk'] at *; exact ⟨h1, h2, h3⟩
  have e : ({ A with data := d } : Dense R) = ⟨.col, Dim.mk' pr pc, d⟩ := by
    cases A; simp_all
  rw [e]
  apply Dense.is_of_raw hd.1
  intro t ht
  rw [hd.2 t ht]
  show some (some (m t)) = some (some (m (t % pr + t / pr * pr)))
  rw [Nat.mod_add_div']

theorem lin_lt {pr pc I J : Nat} (hI : I < pr) (hJ : J < pc) : I + J * pr < pr * pc := by
  have : (J + 1) * pr ≤ pc * pr := Nat.mul_le_mul_right _ hJ
  rw [Nat.add_mul, Nat.one_mul] at this
  rw [Nat.mul_comm pr pc]; omega

theorem lin_inj {pr I J K L : Nat} (hI : I < pr) (hK : K < pr) (h : I + J * pr = K + L * pr) : I = K ∧ J = L :=
  add_mul_inj hI hK h

/-- An order in which the cells of an nr x nc window are visited: step `t` visits row `a t`, column `b t`. -/
structure Order (nr nc : Nat) (a b : Nat → Nat) : Prop where
  row : ∀ t, t < nr * nc → a t < nr
  col : ∀ t, t < nr * nc → b t < nc
  surj : ∀ i j, i < nr → j < nc → ∃ t, t < nr * nc ∧ a t = i ∧ b t = j
  inj : ∀ s t, s < nr * nc → t < nr * nc → a s = a t → b s = b t → s = t

theorem colOrder {nr nc : Nat} : Order nr nc (· % nr) (· / nr) where
  row t ht := Nat.mod_lt _ (Nat.pos_of_ne_zero fun e => by simp [e] at ht)
  col t ht := Nat.div_lt_of_lt_mul ht
  surj i j hi hj := by
    refine ⟨i + j * nr, lin_lt hi hj, ?_, ?_⟩
    · rw [Nat.add_mul_mod_self_right, Nat.mod_eq_of_lt hi]
    · rw [Nat.add_mul_div_right _ _ (by omega), Nat.div_eq_of_lt hi, Nat.zero_add]
  inj s t _ _ h1 h2 := by
    rw [← Nat.div_add_mod s nr, ← Nat.div_add_mod t nr]
    rw [h1, h2]

theorem rowOrder {nr nc : Nat} : Order nr nc (· / nc) (· % nc) where
  row t ht := Nat.div_lt_of_lt_mul (by rw [Nat.mul_comm]; exact ht)
  col t ht := Nat.mod_lt _ (Nat.pos_of_ne_zero fun e => by simp [e] at ht)
  surj i j hi hj := by
    refine ⟨j + i * nc, by rw [Nat.mul_comm nr nc]; exact lin_lt hj hi, ?_, ?_⟩
    · rw [Nat.add_mul_div_right _ _ (by omega), Nat.div_eq_of_lt hj, Nat.zero_add]
    · rw [Nat.add_mul_mod_self_right, Nat.mod_eq_of_lt hj]
  inj s t _ _ h1 h2 := by
    rw [← Nat.div_add_mod s nc, ← Nat.div_add_mod t nc]
    rw [h1, h2]

/-- Position in memory of the t-th cell of the window at `(r0,c0)`. -/
def cell (pr : Nat) (a b : Nat → Nat) (r0 c0 t : Nat) : Nat := (r0 + a t) + (c0 + b t) * pr

theorem cell_lt {pr pc nr nc r0 c0 : Nat} {a b : Nat → Nat} (h : Order nr nc a b) (h1 : r0 + nr ≤ pr) (h2 : c0 + nc ≤ pc) {t : Nat}
    (ht : t < nr * nc) : cell pr a b r0 c0 t < pr * pc := by
  have := h.row t ht
  have := h.col t ht
  exact lin_lt (by omega) (by omega)

theorem cell_eq {pr nr nc r1 c1 r2 c2 : Nat} {a b : Nat → Nat} (h : Order nr nc a b) (h1 : r1 + nr ≤ pr) (h3 : r2 + nr ≤ pr) {s t : Nat}
    (hs : s < nr * nc) (ht : t < nr * nc) :
    cell pr a b r1 c1 s = cell pr a b r2 c2 t ↔ r1 + a s = r2 + a t ∧ c1 + b s = c2 + b t := by
  have := h.row s hs
  have := h.row t ht
  constructor
  · intro e
    exact lin_inj (by omega) (by omega) e
  · rintro ⟨x, y⟩
    simp only [cell, x, y]

theorem cell_inj {pr nr nc r1 c1 : Nat} {a b : Nat → Nat} (h : Order nr nc a b) (h1 : r1 + nr ≤ pr) {s t : Nat}
    (hst : s < t) (ht : t < nr * nc) : cell pr a b r1 c1 s ≠ cell pr a b r1 c1 t := by
  intro e
  have := (cell_eq h h1 h1 (by omega) ht).1 e
  have := h.inj s t (by omega) ht (by omega) (by omega)
  omega

/-- Value of the run, per cell, when nothing written is read later. -/
theorem run_window (op : R → R → R) {pr nr nc r1 c1 r2 c2 : Nat} {a b : Nat → Nat} (h : Order nr nc a b) (F : Nat → Nat → R)
    (h1 : r1 + nr ≤ pr) (h3 : r2 + nr ≤ pr) (hsafe : ∀ s t, s < t → t < nr * nc → cell pr a b r1 c1 s ≠ cell pr a b r2 c2 t)
    {I J : Nat} (hI : I < pr) :
    run op (cell pr a b r1 c1) (cell pr a b r2 c2) (nr * nc) (mem F pr) (I + J * pr) = assigned op F nr nc r1 c1 r2 c2 I J := by
  unfold assigned
  by_cases hw : r1 ≤ I ∧ I < r1 + nr ∧ c1 ≤ J ∧ J < c1 + nc
  · rw [if_pos hw]
    obtain ⟨t, ht, ea, eb⟩ := h.surj (I - r1) (J - c1) (by omega) (by omega)
    have ep : cell pr a b r1 c1 t = I + J * pr := by
      unfold cell; rw [ea, eb, show r1 + (I - r1) = I by omega, show c1 + (J - c1) = J by omega]
    have eq : cell pr a b r2 c2 t = (I - r1 + r2) + (J - c1 + c2) * pr := by
      unfold cell; rw [ea, eb, Nat.add_comm r2, Nat.add_comm c2]
    rw [← ep, run_safe op _ _ (nr * nc) (mem F pr) (fun s t hst ht => cell_inj h h1 hst ht) hsafe _ ht, ep, eq, mem_at F J hI,
      mem_at F _ (by omega)]
  · rw [if_neg hw, run_other, mem_at F J hI]
    intro t ht e
    have := h.row t ht
    have := h.col t ht
    obtain ⟨x, y⟩ := lin_inj (show r1 + a t < pr by omega) hI e
    omega

/-- What `assignSub` does, step by step. -/
theorem assignSub_run (op : R → R → R) {A : Dense R} {pr pc nr nc r1 c1 r2 c2 : Nat} {F : Nat → Nat → R}
    (hA : A.Is pr pc F) (ho : A.ori = .col) (hnr : 0 < nr) (hnc : 0 < nc) (h1 : r1 + nr ≤ pr) (h2 : c1 + nc ≤ pc)
    (h3 : r2 + nr ≤ pr) (h4 : c2 + nc ≤ pc) (hm1 : pr < 2 ^ 64 - 1) (hm2 : nc < 2 ^ 31) :
    Sat (assignSub op A nr nc r1 c1 r2 c2) (fun D => D.ori = .col ∧ D.Is pr pc (fun I J =>
      run op (cell pr (· % nr) (· / nr) r1 c1) (cell pr (· % nr) (· / nr) r2 c2) (nr * nc) (mem F pr) (I + J * pr))) := by
  have hrows : A.view.rows = pr := by rw [hA.view_rows]; rfl
  have hbase : A.view.base = 0 := by rw [hA.view_rows]; rfl
  have hok : ∀ r0 c0, (A.view.subStriped nr nc r0 c0).Ok := by
    intro r0 c0
    refine ⟨hnr, hnc, ?_, ?_, ?_⟩
    · show nr < sizeMod
      unfold sizeMod; omega
    · show A.view.rows - nr + 1 < sizeMod
      rw [hrows]; unfold sizeMod; omega
    · show ((nc : Nat) : Int) ≤ intMax
      unfold intMax; omega
  have hcell : ∀ r0 c0 t, (A.view.subStriped nr nc r0 c0).cell t = ((cell pr (· % nr) (· / nr) r0 c0 t : Nat) : Int) := by
    intro r0 c0 t
    simp only [Striped.cell, View.subStriped, hrows, hbase, cell]
    rw [show nr + (pr - nr) = pr by omega]
    push_cast; ring
  unfold assignSub
  have hle : nc * nr ≤ pr * pc := by
    rw [Nat.mul_comm]; exact Nat.mul_le_mul (by omega) (by omega)
  refine Sat.bind (assignStriped_run op (hok r1 c1) (hok r2 c2) rfl (by rw [hA.alloc]; exact Nat.lt_succ_of_le hle)
    (holds_of_is hA ho) (p := cell pr (· % nr) (· / nr) r1 c1) (q := cell pr (· % nr) (· / nr) r2 c2)
    (fun t ht => ⟨hcell _ _ t, cell_lt colOrder h1 h2 (by rw [Nat.mul_comm]; exact ht)⟩)
    (fun t ht => ⟨hcell _ _ t, cell_lt colOrder h3 h4 (by rw [Nat.mul_comm]; exact ht)⟩)) ?_
  intro d hd
  refine Sat.pure ⟨ho, ?_⟩
  have := is_of_holds hA ho hd
  rw [show (A.view.subStriped nr nc r1 c1).nb * (A.view.subStriped nr nc r1 c1).cont = nr * nc from Nat.mul_comm _ _] at this
  exact this

/-- What `copySub` does, step by step. -/
theorem copySub_run {A : Dense R} {pr pc nr nc r1 c1 r2 c2 : Nat} {F : Nat → Nat → R}
    (hA : A.Is pr pc F) (ho : A.ori = .col) (h1 : r1 + nr ≤ pr) (h2 : c1 + nc ≤ pc) (h3 : r2 + nr ≤ pr) (h4 : c2 + nc ≤ pc) :
    Sat (copySub A nr nc r1 c1 r2 c2) (fun D => D.ori = .col ∧ D.Is pr pc (fun I J =>
      run (fun _ y => y) (cell pr (· / nc) (· % nc) r1 c1) (cell pr (· / nc) (· % nc) r2 c2) (nr * nc) (mem F pr) (I + J * pr))) := by
  have hpos : ∀ r0 c0 i j, (A.view.sub nr nc r0 c0).base + (A.view.sub nr nc r0 c0).pos i j = (r0 + i) + (c0 + j) * pr := by
    intro r0 c0 i j
    simp only [hA.view_rows, ho, View.sub, View.pos, View.plain]; ring
  have hfit : ∀ r0 c0, r0 + nr ≤ pr → c0 + nc ≤ pc → (A.view.sub nr nc r0 c0).Fits (pr * pc) := by
    intro r0 c0 hr hc
    constructor
    · rw [hA.view_rows, ho]
      show nr ≤ pr
      omega
    · intro i j hi hj
      rw [hpos]
      change i < nr at hi
      change j < nc at hj
      exact lin_lt (by omega) (by omega)
  unfold copySub
  refine Sat.bind (copyViews_run (holds_of_is hA ho) (hfit r2 c2 h3 h4) (hfit r1 c1 h1 h2) rfl rfl) ?_
  intro d hd
  refine Sat.pure ⟨ho, ?_⟩
  have := is_of_holds hA ho hd
  simp only [hpos] at this
  exact this

theorem col_before {nr s t : Nat} (hst : s < t) : s / nr < t / nr ∨ (s / nr = t / nr ∧ s % nr < t % nr) := by
  have hle : s / nr ≤ t / nr := Nat.div_le_div_right (by omega)
  rcases Nat.lt_or_eq_of_le hle with h | h
  · exact .inl h
  · refine .inr ⟨h, ?_⟩
    have a := Nat.div_add_mod s nr
    have b := Nat.div_add_mod t nr
    rw [h] at a
    omega

theorem before_col {n s t : Nat} (h : s / n < t / n ∨ (s / n = t / n ∧ s % n < t % n)) : s < t := by
  rcases h with h | ⟨h, h'⟩
  · by_contra hn
    have : t / n ≤ s / n := Nat.div_le_div_right (by omega)
    omega
  · have a := Nat.div_add_mod s n
    have b := Nat.div_add_mod t n
    rw [h] at a
    omega

/-- C72, `sub1 op= sub2` for two submatrices of one matrix: if the windows do not overlap, or coincide, or the
source window starts later in memory order (further right, or in the same columns further down), then exactly the
window cells change, each to `op` of the old values of the two cells. -/
theorem C72_views_partial (op : R → R → R) {A : Dense R} {pr pc nr nc r1 c1 r2 c2 : Nat} {F : Nat → Nat → R}
    (hA : A.Is pr pc F) (ho : A.ori = .col) (hnr : 0 < nr) (hnc : 0 < nc) (h1 : r1 + nr ≤ pr) (h2 : c1 + nc ≤ pc)
    (h3 : r2 + nr ≤ pr) (h4 : c2 + nc ≤ pc) (hm1 : pr < 2 ^ 64 - 1) (hm2 : nc < 2 ^ 31)
    (hsafe : Disjoint' nr nc r1 c1 r2 c2 ∨ c1 < c2 ∨ (c1 = c2 ∧ r1 ≤ r2)) :
    Sat (assignSub op A nr nc r1 c1 r2 c2) (fun D => D.ori = .col ∧ D.Is pr pc (assigned op F nr nc r1 c1 r2 c2)) := by
  refine (assignSub_run op hA ho hnr hnc h1 h2 h3 h4 hm1 hm2).mono ?_
  rintro D ⟨hDo, hD⟩
  refine ⟨hDo, hD.congr fun I J hI hJ => run_window op colOrder F h1 h3 ?_ hI⟩
  intro s t hst ht e
  have e' := (cell_eq colOrder h1 h3 (by omega) ht).1 e
  have x1 := colOrder.row s (Nat.lt_trans hst ht)
  have x2 := colOrder.row t ht
  have x3 := colOrder.col s (Nat.lt_trans hst ht)
  have x4 := colOrder.col t ht
  have x5 := col_before (nr := nr) hst
  generalize s / nr = sd at *
  generalize t / nr = td at *
  generalize s % nr = sm at *
  generalize t % nr = tm at *
  rcases hsafe with hdis | hc | ⟨hc, hr⟩
  · exact hdis ⟨r1 + sm, c1 + sd, by omega, by omega⟩
  · omega
  · omega

/-- C72 is false for all other overlaps: there is an integer matrix for which `sub1 += sub2` does not add the old
values. -/
theorem C72_overlap_is_wrong {pr pc nr nc r1 c1 r2 c2 : Nat} (hnr : 0 < nr) (hnc : 0 < nc) (h1 : r1 + nr ≤ pr) (h2 : c1 + nc ≤ pc)
    (h3 : r2 + nr ≤ pr) (h4 : c2 + nc ≤ pc) (hm1 : pr < 2 ^ 64 - 1) (hm2 : nc < 2 ^ 31)
    (hov : ¬ (Disjoint' nr nc r1 c1 r2 c2 ∨ c1 < c2 ∨ (c1 = c2 ∧ r1 ≤ r2))) :
    ∃ (A D : Dense ℤ) (F : Nat → Nat → ℤ), A.Is pr pc F ∧ A.ori = .col ∧
      assignSub (· + ·) A nr nc r1 c1 r2 c2 = .ok D ∧ ¬ D.Is pr pc (assigned (· + ·) F nr nc r1 c1 r2 c2) := by
  have hA := Dense.ofFn_is .col pr pc (fun _ _ => (1 : ℤ))
  obtain ⟨D, e, hDo, hD⟩ := assignSub_run (· + ·) hA rfl hnr hnc h1 h2 h3 h4 hm1 hm2
  refine ⟨_, D, _, hA, rfl, e, fun hbad => ?_⟩
  have hz : ∃ t s, s < t ∧ t < nr * nc ∧ cell pr (· % nr) (· / nr) r1 c1 s = cell pr (· % nr) (· / nr) r2 c2 t := by
    simp only [not_or, Disjoint', not_not] at hov
    obtain ⟨⟨I, J, w1, w2⟩, hc, hr⟩ := hov
    obtain ⟨s, hs, sa, sb⟩ := (colOrder (nr := nr) (nc := nc)).surj (I - r1) (J - c1) (by omega) (by omega)
    obtain ⟨t, ht, ta, tb⟩ := (colOrder (nr := nr) (nc := nc)).surj (I - r2) (J - c2) (by omega) (by omega)
    refine ⟨t, s, before_col (n := nr) ?_, ht, (cell_eq colOrder h1 h3 hs ht).2 ?_⟩
    · rw [sa, sb, ta, tb]; omega
    · rw [sa, sb, ta, tb]; omega
  obtain ⟨s, t, hst, ht, -, hv⟩ := run_hazard (fun x y : ℤ => x + y) (cell pr (· % nr) (· / nr) r1 c1)
    (cell pr (· % nr) (· / nr) r2 c2) (nr * nc) (mem (fun _ _ => (1 : ℤ)) pr) (fun s t hst ht => cell_inj colOrder h1 hst ht) hz
  have mt := colOrder.row t ht
  have dt := colOrder.col t ht
  have x1 := hD.elems (r1 + t % nr) (c1 + t / nr) (by omega) (Nat.lt_of_lt_of_le (Nat.add_lt_add_left dt _) h2)
  have x2 := hbad.elems (r1 + t % nr) (c1 + t / nr) (by omega) (Nat.lt_of_lt_of_le (Nat.add_lt_add_left dt _) h2)
  rw [x1] at x2
  have x3 := Except.ok.inj x2
  change run (fun x y : ℤ => x + y) _ _ _ _ (cell pr (· % nr) (· / nr) r1 c1 t) = _ at x3
  rw [hv] at x3
  unfold assigned at x3
  rw [if_pos ⟨Nat.le_add_right _ _, Nat.add_lt_add_left mt _, Nat.le_add_right _ _, Nat.add_lt_add_left dt _⟩] at x3
  simp [mem] at x3

/-- C72, `copy(sub2, sub1)` for two submatrices of one matrix: the old contents of the source window arrive in the
destination window unless the windows overlap and the source starts higher (or equally high and further left). -/
theorem C72_copy_partial {A : Dense R} {pr pc nr nc r1 c1 r2 c2 : Nat} {F : Nat → Nat → R}
    (hA : A.Is pr pc F) (ho : A.ori = .col) (h1 : r1 + nr ≤ pr) (h2 : c1 + nc ≤ pc) (h3 : r2 + nr ≤ pr) (h4 : c2 + nc ≤ pc)
    (hsafe : Disjoint' nr nc r1 c1 r2 c2 ∨ r1 < r2 ∨ (r1 = r2 ∧ c1 ≤ c2)) :
    Sat (copySub A nr nc r1 c1 r2 c2) (fun D => D.ori = .col ∧ D.Is pr pc (assigned (fun _ y => y) F nr nc r1 c1 r2 c2)) := by
  refine (copySub_run hA ho h1 h2 h3 h4).mono ?_
  rintro D ⟨hDo, hD⟩
  refine ⟨hDo, hD.congr fun I J hI hJ => run_window _ rowOrder F h1 h3 ?_ hI⟩
  intro s t hst ht e
  have e' := (cell_eq rowOrder h1 h3 (by omega) ht).1 e
  have x1 := rowOrder.row s (Nat.lt_trans hst ht)
  have x2 := rowOrder.row t ht
  have x3 := rowOrder.col s (Nat.lt_trans hst ht)
  have x4 := rowOrder.col t ht
  have x5 := col_before (nr := nc) hst
  generalize s / nc = sd at *
  generalize t / nc = td at *
  generalize s % nc = sm at *
  generalize t % nc = tm at *
  rcases hsafe with hdis | hc | ⟨hc, hr⟩
  · exact hdis ⟨r1 + sd, c1 + sm, by omega, by omega⟩
  · omega
  · omega

/-- C72 is false for the other overlaps: a matrix whose elements are all different is not copied correctly. -/
theorem C72_copy_overlap_is_wrong {pr pc nr nc r1 c1 r2 c2 : Nat} (h1 : r1 + nr ≤ pr) (h2 : c1 + nc ≤ pc)
    (h3 : r2 + nr ≤ pr) (h4 : c2 + nc ≤ pc) (hov : ¬ (Disjoint' nr nc r1 c1 r2 c2 ∨ r1 < r2 ∨ (r1 = r2 ∧ c1 ≤ c2))) :
    ∃ (A D : Dense ℤ) (F : Nat → Nat → ℤ), A.Is pr pc F ∧ A.ori = .col ∧
      copySub A nr nc r1 c1 r2 c2 = .ok D ∧ ¬ D.Is pr pc (assigned (fun _ y => y) F nr nc r1 c1 r2 c2) := by
  have hA := Dense.ofFn_is .col pr pc (fun I J => ((I + J * pr : Nat) : ℤ))
  obtain ⟨D, e, hDo, hD⟩ := copySub_run hA rfl h1 h2 h3 h4
  refine ⟨_, D, _, hA, rfl, e, fun hbad => ?_⟩
  have hz : ∃ t s, s < t ∧ t < nr * nc ∧ cell pr (· / nc) (· % nc) r1 c1 s = cell pr (· / nc) (· % nc) r2 c2 t := by
    simp only [not_or, Disjoint', not_not] at hov
    obtain ⟨⟨I, J, w1, w2⟩, hc, hr⟩ := hov
    obtain ⟨s, hs, sa, sb⟩ := (rowOrder (nr := nr) (nc := nc)).surj (I - r1) (J - c1) (by omega) (by omega)
    obtain ⟨t, ht, ta, tb⟩ := (rowOrder (nr := nr) (nc := nc)).surj (I - r2) (J - c2) (by omega) (by omega)
    refine ⟨t, s, before_col (n := nc) ?_, ht, (cell_eq rowOrder h1 h3 hs ht).2 ?_⟩
    · rw [sa, sb, ta, tb]; omega
    · rw [sa, sb, ta, tb]; omega
  obtain ⟨s, t, hst, ht, -, hv⟩ := run_hazard (fun _ y : ℤ => y) (cell pr (· / nc) (· % nc) r1 c1)
    (cell pr (· / nc) (· % nc) r2 c2) (nr * nc) (mem (fun I J => ((I + J * pr : Nat) : ℤ)) pr)
    (fun s t hst ht => cell_inj rowOrder h1 hst ht) hz
  have mt := rowOrder.row t ht
  have dt := rowOrder.col t ht
  have x1 := hD.elems (r1 + t / nc) (c1 + t % nc) (Nat.lt_of_lt_of_le (Nat.add_lt_add_left mt _) h1) (by omega)
  have x2 := hbad.elems (r1 + t / nc) (c1 + t % nc) (Nat.lt_of_lt_of_le (Nat.add_lt_add_left mt _) h1) (by omega)
  rw [x1] at x2
  have x3 := Except.ok.inj x2
  change run (fun _ y : ℤ => y) _ _ _ _ (cell pr (· / nc) (· % nc) r1 c1 t) = _ at x3
  rw [hv] at x3
  unfold assigned at x3
  rw [if_pos ⟨Nat.le_add_right _ _, Nat.add_lt_add_left mt _, Nat.le_add_right _ _, Nat.add_lt_add_left dt _⟩] at x3
  simp only [mem, Nat.mod_add_div', Nat.add_sub_cancel_left] at x3
  have x4 : cell pr (· / nc) (· % nc) r2 c2 s = cell pr (· / nc) (· % nc) r2 c2 t := by
    have := Int.ofNat.inj x3
    rw [this]; unfold cell; ring
  exact cell_inj rowOrder h3 hst ht x4

/-- C72 for a matrix with itself: `A op= A` combines every element with its own old value. -/
theorem C72_self (op : R → R → R) {A : Dense R} {r c : Nat} {f : Nat → Nat → R} (hA : A.Is r c f) :
    Sat (assignSelf op A) (fun D => D.ori = A.ori ∧ D.Is r c (fun i j => op (f i j) (f i j))) := by
  unfold assignSelf
  have hraw : ∀ t < r * c, A.data[t]? = some (some (f (Dense.unpos A.ori r c t).1 (Dense.unpos A.ori r c t).2)) :=
    fun t ht => Buf.read_ok.1 (hA.raw ht)
  refine Sat.bind (Sat.raw (fun k s => s.1 = k ∧ Holds s.2 (r * c) (fun t => if t < k then
      op (f (Dense.unpos A.ori r c t).1 (Dense.unpos A.ori r c t).2) (f (Dense.unpos A.ori r c t).1 (Dense.unpos A.ori r c t).2)
      else f (Dense.unpos A.ori r c t).1 (Dense.unpos A.ori r c t).2)) ⟨rfl, hA.alloc, fun t ht => by simpa using hraw t ht⟩ ?_) ?_
  · rintro k ⟨q, d⟩ hk ⟨rfl, hd⟩
    rw [hA.alloc] at hk
    simp only at hk hd ⊢
    have hr := hd.read hk
    rw [if_neg (by omega)] at hr
    obtain ⟨d', e', hd'⟩ := hd.write hk (op (f (Dense.unpos A.ori r c q).1 (Dense.unpos A.ori r c q).2) (f (Dense.unpos A.ori r c q).1 (Dense.unpos A.ori r c q).2))
    refine ⟨(q + 1, d'), by simp only [hr, bind_ok', e', pure_ok'], rfl, hd'.1, fun t ht => ?_⟩
    rw [hd'.2 t ht]
    beta_reduce
    by_cases e : t = q
    · subst e; rw [Function.update_self, if_pos (by omega)]
    · rw [Function.update_of_ne e]
      by_cases h : t < q
      · rw [if_pos h, if_pos (by omega)]
      · rw [if_neg h, if_neg (by omega)]
  · rintro ⟨q, d⟩ ⟨-, hd⟩
    rw [hA.alloc] at hd
    refine Sat.pure ⟨rfl, ?_⟩
    have hdim : A.dim = Dim.mk' r c := by
      have h1 := hA.rows; have h2 := hA.cols; have h3 := hA.size
      cases hd : A.dim; simp [hd, Dim.mk'] at *; exact ⟨h1, h2, h3⟩
    have e : ({ A with data := d } : Dense R) = ⟨A.ori, Dim.mk' r c, d⟩ := by
      cases A; simp_all
    rw [e]
    apply Dense.is_of_raw hd.1
    intro t ht
    rw [hd.2 t ht]
    beta_reduce
    rw [if_pos ht]

/-- Non-vacuity: shifting the upper 2x2 window of a 3x3 matrix up onto itself works, shifting it down does not. -/
example : ∃ A : Dense ℤ, A.Is 3 3 (fun i j => (i + 3 * j : Nat)) ∧ A.ori = .col ∧
    (¬ Disjoint' 2 2 0 0 1 1) ∧ (Disjoint' 2 2 0 0 1 1 ∨ 0 < 1 ∨ (0 = 1 ∧ 0 ≤ 1)) ∧ ¬ (Disjoint' 2 2 1 1 0 0 ∨ 1 < 0 ∨ (1 = 0 ∧ 1 ≤ 0)) := by
  refine ⟨_, Dense.ofFn_is .col 3 3 _, rfl, fun h => h ⟨1, 1, by decide, by decide⟩, Or.inr (Or.inl (by decide)), ?_⟩
  rintro (h | h | h)
  · exact h ⟨1, 1, by decide, by decide⟩
  · omega
  · omega

end BB.Alias
