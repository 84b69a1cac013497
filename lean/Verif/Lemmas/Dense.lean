import Verif.Lemmas.Layout

namespace BB

variable {R : Type}

/-- Contents of a view cell by cell, `none` = uninitialised. -/
def View.Cells (v : View) (b : Buf R) (F : Nat → Nat → Option R) : Prop :=
  ∀ i j, i < v.rows → j < v.cols → b[v.base + v.pos i j]? = some (F i j)

theorem View.Cells.congr {v : View} {b : Buf R} {F G : Nat → Nat → Option R} (h : v.Cells b F)
    (hFG : ∀ i j, i < v.rows → j < v.cols → F i j = G i j) : v.Cells b G := by
  intro i j hi hj
  rw [h i j hi hj, hFG i j hi hj]

theorem View.Cells.read {v : View} {b : Buf R} {F : Nat → Nat → Option R} (h : v.Cells b F)
    {i j : Nat} {x : R} (hi : i < v.rows) (hj : j < v.cols) (hx : F i j = some x) :
    b.read (v.base + v.pos i j) = .ok x := by
  rw [Buf.read_ok, h i j hi hj, hx]

theorem View.Cells.write {v : View} {b : Buf R} {F : Nat → Nat → Option R} (h : v.Cells b F)
    (hf : v.Fits b.length) {i j : Nat} (x : R) (hi : i < v.rows) (hj : j < v.cols) :
    ∃ b', b.write (v.base + v.pos i j) x = .ok b' ∧ b'.length = b.length ∧
      v.Cells b' (fun k l => if k = i ∧ l = j then some x else F k l) ∧
      ∀ q, q ≠ v.base + v.pos i j → b'[q]? = b[q]? := by
  have hb := hf.bound i j hi hj
  refine ⟨_, Buf.write_ok hb, by simp, ?_, ?_⟩
  · intro k l hk hl
    rw [List.getElem?_set]
    by_cases hkl : k = i ∧ l = j
    · obtain ⟨rfl, rfl⟩ := hkl
      simp [hb]
    · have : v.base + v.pos i j ≠ v.base + v.pos k l := by
        intro he
        have := View.pos_inj hf hi hj hk hl (by omega)
        exact hkl ⟨this.1.symm, this.2.symm⟩
      simp only [this, if_false, hkl]
      exact h k l hk hl
  · intro q hq
    rw [List.getElem?_set, if_neg (fun h => hq h.symm)]

theorem View.Cells.get {v : View} {b : Buf R} {F : Nat → Nat → Option R} (h : v.Cells b F)
    {i j : Nat} {x : R} (hi : i < v.rows) (hj : j < v.cols) (hx : F i j = some x) :
    v.get b i j = .ok x := by
  rw [View.get_eq hi hj, h.read hi hj hx]

theorem View.alloc_cells {v : View} {n : Nat} (hf : v.Fits n) : v.Cells (Buf.alloc n : Buf R) (fun _ _ => none) := by
  intro i j hi hj
  have := hf.bound i j hi hj
  rw [Buf.alloc, List.getElem?_replicate, if_pos this]

/-- cells that are anything (existence of the current contents) -/
theorem View.cells_any {v : View} {b : Buf R} (hf : v.Fits b.length) :
    v.Cells b (fun i j => (b[v.base + v.pos i j]?).join) := by
  intro i j hi hj
  have := hf.bound i j hi hj
  rw [List.getElem?_eq_getElem this]; simp [List.getElem?_eq_getElem this]

/-- raw loop `[begin,end)` -/
theorem rawLoop {σ : Type} (n : Nat) (f : Nat → σ → Res σ) (s : σ) :
    ptrLoop 0 n 1 f s = loopN n f s := by
  rw [ptrLoop_eq f n 0 n 1 s (by omega) (by omega)]
  apply loopN_congr
  intro i s _
  congr 1
  omega

theorem Sat.rowLoop {σ : Type} {v : View} {n i : Nat} {f : Nat → σ → Res σ} {s : σ} (hf : v.Fits n) (hi : i < v.rows)
    (I : Nat → σ → Prop) (h0 : I 0 s)
    (hs : ∀ j s, j < v.cols → I j s → Sat (f (v.base + v.pos i j) s) (I (j+1))) :
    Sat (ptrLoop (v.rowBegin i) (v.rowEnd i) v.rowStride f s) (I v.cols) := by
  rw [View.rowLoop hf hi]
  exact Sat.loop I h0 hs

theorem Sat.colLoop {σ : Type} {v : View} {n j : Nat} {f : Nat → σ → Res σ} {s : σ} (hf : v.Fits n) (hj : j < v.cols)
    (I : Nat → σ → Prop) (h0 : I 0 s)
    (hs : ∀ i s, i < v.rows → I i s → Sat (f (v.base + v.pos i j) s) (I (i+1))) :
    Sat (ptrLoop (v.colBegin j) (v.colEnd j) v.colStride f s) (I v.rows) := by
  rw [View.colLoop hf hj]
  exact Sat.loop I h0 hs

/-- Writing a cell of a view. -/
theorem Sat.writeCell {β : Type} {v : View} {b : Buf R} {F : Nat → Nat → Option R} {p : Nat} {x : R}
    {f : Buf R → Res β} {Q : β → Prop} (h : v.Cells b F)
    (hf : v.Fits b.length) {i j : Nat} (hi : i < v.rows) (hj : j < v.cols) (hp : p = v.base + v.pos i j)
    (hk : ∀ b', b'.length = b.length →
      v.Cells b' (fun k l => if k = i ∧ l = j then some x else F k l) → Sat (f b') Q) :
    Sat (b.write p x >>= f) Q := by
  subst hp
  obtain ⟨b', e, hl, hc, -⟩ := h.write hf x hi hj
  rw [e]
  exact hk b' hl hc

namespace Dense

theorem Is.view_rows {A : Dense R} {r c : Nat} {f} (h : A.Is r c f) : A.view = View.plain A.ori r c := by
  unfold Dense.view; rw [h.rows, h.cols]

theorem Is.fits {A : Dense R} {r c : Nat} {f} (h : A.Is r c f) : A.view.Fits A.data.length := by
  rw [h.view_rows, h.alloc]; exact View.plain_fits _ r c

theorem Is.cells {A : Dense R} {r c : Nat} {f} (h : A.Is r c f) :
    A.view.Cells A.data (fun i j => some (f i j)) := by
  intro i j hi hj
  have hi' : i < r := by rw [h.view_rows] at hi; exact hi
  have hj' : j < c := by rw [h.view_rows] at hj; exact hj
  have := h.elems i j hi' hj'
  unfold Dense.get at this
  rw [View.get_eq hi hj, Buf.read_ok] at this
  exact this

theorem Is.read {A : Dense R} {r c : Nat} {f} (h : A.Is r c f) {i j : Nat} (hi : i < r) (hj : j < c) :
    A.data.read ((View.plain A.ori r c).pos i j) = .ok (f i j) := by
  have := h.cells.read (i := i) (j := j) (by rw [h.view_rows]; exact hi) (by rw [h.view_rows]; exact hj) rfl
  rw [h.view_rows] at this
  simpa [View.plain] using this

theorem is_of_cells {A : Dense R} {r c : Nat} {f : Nat → Nat → R} (hr : A.dim.rows = r) (hc : A.dim.cols = c)
    (hs : A.dim.fullSize = r * c) (ha : A.data.length = r * c)
    (hcells : (View.plain A.ori r c).Cells A.data (fun i j => some (f i j))) : A.Is r c f where
  rows := hr
  cols := hc
  size := hs
  alloc := ha
  elems := by
    intro i j hi hj
    unfold Dense.get Dense.view
    rw [hr, hc]
    exact hcells.get hi hj rfl

theorem Is.congr {A : Dense R} {r c : Nat} {f g : Nat → Nat → R} (h : A.Is r c f)
    (hfg : ∀ i j, i < r → j < c → f i j = g i j) : A.Is r c g :=
  ⟨h.rows, h.cols, h.size, h.alloc, fun i j hi hj => by rw [h.elems i j hi hj, hfg i j hi hj]⟩

theorem fillBuf_ok (b : Buf R) (x : R) : fillBuf b x = .ok (List.replicate b.length (some x)) := by
  unfold fillBuf
  rw [rawLoop]
  obtain ⟨b', e, hl, hx⟩ := loopN_spec (n := b.length) (f := fun p b => b.write p x) (s := b)
    (fun k b' => b'.length = b.length ∧ ∀ t, t < k → b'[t]? = some (some x))
    ⟨rfl, fun t ht => by omega⟩
    (by
      rintro i b' hi ⟨hl, hx⟩
      refine ⟨b'.set i (some x), Buf.write_ok (by omega), by simpa using hl, ?_⟩
      intro t ht
      rw [List.getElem?_set]
      by_cases h : i = t
      · subst h; simp [hl, hi]
      · simp only [h, if_false]; exact hx t (by omega))
  rw [e]
  congr 1
  apply List.ext_getElem?
  intro t
  by_cases ht : t < b.length
  · rw [hx t ht, List.getElem?_replicate, if_pos ht]
  · rw [List.getElem?_eq_none (by omega), List.getElem?_eq_none (by simp; omega)]

theorem fillAll_ok (A : Dense R) (x : R) :
    A.fillAll x = .ok { A with data := List.replicate A.data.length (some x) } := by
  simp [fillAll, fillBuf_ok]

theorem length_resizeBuf (b : Buf R) (n : Nat) : (resizeBuf b n).length = n := by
  unfold resizeBuf; split
  · assumption
  · simp

theorem is_mk {o : Ori} {r c : Nat} {d : Buf R} {f : Nat → Nat → R} (ha : d.length = r * c)
    (hcells : (View.plain o r c).Cells d (fun i j => some (f i j))) :
    Dense.Is ⟨o, Dim.mk' r c, d⟩ r c f :=
  is_of_cells (A := ⟨o, Dim.mk' r c, d⟩) rfl rfl rfl ha hcells

theorem resizeFill_eq (A : Dense R) (r c : Nat) (x : R) :
    A.resizeFill r c x = .ok ⟨A.ori, Dim.mk' r c, List.replicate (r * c) (some x)⟩ := by
  rw [resizeFill, fillAll_ok]
  simp [resize, length_resizeBuf]

theorem replicate_cells (o : Ori) (r c : Nat) (x : R) :
    (View.plain o r c).Cells (List.replicate (r * c) (some x)) (fun _ _ => some x) := by
  intro i j hi hj
  have := (View.plain_fits o r c).bound i j hi hj
  rw [List.getElem?_replicate, if_pos this]

theorem resizeFill_is (A : Dense R) (r c : Nat) (x : R) :
    ∃ C, A.resizeFill r c x = .ok C ∧ C.ori = A.ori ∧ C.Is r c (fun _ _ => x) :=
  ⟨_, resizeFill_eq A r c x, rfl, is_mk (by simp) (replicate_cells _ _ _ _)⟩

/-- Every list-like matrix is denoted by some object. -/
def ofFn (o : Ori) (r c : Nat) (f : Nat → Nat → R) : Dense R :=
  ⟨o, Dim.mk' r c, (List.range (r * c)).map (fun t => some (match o with
    | .col => f (t % r) (t / r)
    | .row => f (t / c) (t % c)))⟩

theorem ofFn_is (o : Ori) (r c : Nat) (f : Nat → Nat → R) : (ofFn o r c f).Is r c f := by
  apply is_mk (by simp)
  intro i j hi hj
  have hb := (View.plain_fits o r c).bound i j hi hj
  simp only [View.plain] at hi hj
  rw [List.getElem?_map, List.getElem?_range hb]
  cases o with
  | col =>
    simp only [View.plain, View.pos, Option.map_some, Nat.zero_add]
    have h1 : (i + j * r) / r = j := by
      rw [Nat.add_mul_div_right _ _ (by omega), Nat.div_eq_of_lt hi]; omega
    have h2 : (i + j * r) % r = i := by
      rw [Nat.add_mul_mod_self_right]; exact Nat.mod_eq_of_lt hi
    rw [h1, h2]
  | row =>
    simp only [View.plain, View.pos, Option.map_some, Nat.zero_add]
    have h1 : (i * c + j) / c = i := by
      rw [Nat.add_comm, Nat.add_mul_div_right _ _ (by omega), Nat.div_eq_of_lt hj]; omega
    have h2 : (i * c + j) % c = j := by
      rw [Nat.add_comm, Nat.add_mul_mod_self_right]; exact Nat.mod_eq_of_lt hj
    rw [h1, h2]

/-- (row, column) of the t-th storage cell. -/
def unpos (o : Ori) (r c t : Nat) : Nat × Nat :=
  match o with
  | .col => (t % r, t / r)
  | .row => (t / c, t % c)

theorem unpos_spec (o : Ori) {r c t : Nat} (ht : t < r * c) :
    (unpos o r c t).1 < r ∧ (unpos o r c t).2 < c ∧
      (View.plain o r c).pos (unpos o r c t).1 (unpos o r c t).2 = t := by
  cases o with
  | col =>
    have hr : 0 < r := by
      rcases Nat.eq_zero_or_pos r with h | h
      · subst h; simp at ht
      · exact h
    refine ⟨Nat.mod_lt _ hr, Nat.div_lt_of_lt_mul ht, ?_⟩
    simp only [unpos, View.plain, View.pos]; rw [Nat.mul_comm]; exact Nat.mod_add_div t r
  | row =>
    have hc : 0 < c := by
      rcases Nat.eq_zero_or_pos c with h | h
      · subst h; simp at ht
      · exact h
    refine ⟨?_, Nat.mod_lt _ hc, ?_⟩
    · rw [Nat.mul_comm] at ht; exact Nat.div_lt_of_lt_mul ht
    · simp only [unpos, View.plain, View.pos]; rw [Nat.mul_comm]; exact Nat.div_add_mod t c

/-- Storage cell by storage cell contents of a dense object. -/
theorem Is.raw {A : Dense R} {r c : Nat} {f} (h : A.Is r c f) {t : Nat} (ht : t < r * c) :
    A.data.read t = .ok (f (unpos A.ori r c t).1 (unpos A.ori r c t).2) := by
  obtain ⟨h1, h2, h3⟩ := unpos_spec A.ori ht
  have := h.read h1 h2
  rw [h3] at this
  exact this

theorem is_of_raw {o : Ori} {r c : Nat} {d : Buf R} {f : Nat → Nat → R} (ha : d.length = r * c)
    (hraw : ∀ t, t < r * c → d[t]? = some (some (f (unpos o r c t).1 (unpos o r c t).2))) :
    Dense.Is ⟨o, Dim.mk' r c, d⟩ r c f := by
  apply is_mk ha
  intro i j hi hj
  have hb := (View.plain_fits o r c).bound i j hi hj
  have hp : (View.plain o r c).base + (View.plain o r c).pos i j = (View.plain o r c).pos i j := by
    simp [View.plain]
  rw [hp] at hb ⊢
  rw [hraw _ hb]
  obtain ⟨h1, h2, h3⟩ := unpos_spec o hb
  obtain ⟨e1, e2⟩ := View.pos_inj (View.plain_fits o r c) h1 h2 hi hj h3
  rw [e1, e2]

end Dense

/-- Writing raw storage in increasing order. -/
theorem Sat.writeRaw {β : Type} {b : Buf R} {p : Nat} {x : R} {f : Buf R → Res β} {Q : β → Prop}
    (hp : p < b.length)
    (hk : ∀ b', b'.length = b.length → (∀ t, b'[t]? = if t = p then some (some x) else b[t]?) → Sat (f b') Q) :
    Sat (b.write p x >>= f) Q := by
  rw [Buf.write_ok hp]
  apply hk
  · simp
  · intro t
    rw [List.getElem?_set]
    by_cases h : p = t
    · subst h; simp [hp]
    · rw [if_neg h, if_neg (fun e => h e.symm)]

end BB
