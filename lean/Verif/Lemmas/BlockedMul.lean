import Verif.Lemmas.Blocked

/-! Auxiliary lemmas: generation and product of blocked matrices. -/

namespace BB

variable {R : Type}

namespace Blocks

variable {α : Type}

/-- Splitting into blocks: every cell holds the result of the conversion of its submatrix. -/
theorem generate_gen {conv : Src R → Res α} {A : Dense R} {rs cs : List Nat} {In : Nat → Nat → α → Prop}
    (hconv : ∀ i j, i < rs.length → j < cs.length →
      Sat (conv (.sub A (rs.getD i 0) (cs.getD j 0) (offs rs i) (offs cs j))) (In i j)) :
    Sat (generateWith conv A rs cs) (fun B => B.ubRows = A.dim.rows ∧ B.ubCols = A.dim.cols ∧ B.Grid rs.length cs.length In) := by
  unfold generateWith
  have fit := View.plain_fits .col rs.length cs.length
  have hv : (Dense.new .col rs.length cs.length : Dense α).view = View.plain .col rs.length cs.length := rfl
  simp only [hv]
  show Sat (Bind.bind (ptrLoop 0 rs.length 1 _ _) _) _
  let Good : Nat → Nat → Option α → Prop := fun i j x => ∃ M, x = some M ∧ In i j M
  refine Sat.bind (Sat.raw (fun i (s : Nat × Buf α) => s.1 = offs rs i ∧ s.2.length = rs.length * cs.length ∧
    ∃ F, (View.plain .col rs.length cs.length).Cells s.2 F ∧ ∀ i' j', i' < i → j' < cs.length → Good i' j' (F i' j')) ?_ ?_) ?_
  · exact ⟨rfl, by simp [Dense.new], _, View.alloc_cells fit, fun _ _ h => by omega⟩
  · rintro i ⟨ro, d⟩ hi ⟨h1, hl, F, hC, hF⟩
    simp only at h1 hl hC
    subst h1
    refine Sat.bind (Sat.of_eq (vecRead_ok hi) rfl) ?_
    rintro h rfl
    refine Sat.bind (Sat.rowLoop fit (i := i) hi
      (fun j (u : Nat × Nat × Buf α) => u.1 = j ∧ u.2.1 = offs cs j ∧ u.2.2.length = rs.length * cs.length ∧
        ∃ F, (View.plain .col rs.length cs.length).Cells u.2.2 F ∧
          (∀ i' j', i' < i → j' < cs.length → Good i' j' (F i' j')) ∧ ∀ j', j' < j → Good i j' (F i j')) ?_ ?_) ?_
    · exact ⟨rfl, rfl, hl, F, hC, hF, fun _ h => by omega⟩
    · rintro j ⟨k, co, d⟩ hj ⟨h1, h2, hl, F, hC, hF, hF'⟩
      simp only at h1 h2 hl hC
      subst h1 h2
      have hj : k < cs.length := hj
      refine Sat.bind (Sat.of_eq (vecRead_ok hj) rfl) ?_
      rintro w rfl
      refine Sat.bind (hconv i k hi hj) ?_
      intro M hM
      refine Sat.writeCell (i := i) (j := k) hC (by rw [hl]; exact fit) hi hj rfl ?_
      intro d' hl' hC'
      refine Sat.pure ⟨rfl, by rw [offs_succ cs hj], by simp only at hl' ⊢; omega, _, hC', ?_, ?_⟩
      · intro i' j' hi' hj'
        rw [if_neg (by omega)]
        exact hF i' j' hi' hj'
      · intro j' hj'
        simp only
        by_cases e : j' = k
        · subst e
          rw [if_pos (by simp)]
          exact ⟨M, rfl, hM⟩
        · rw [if_neg (by omega)]
          exact hF' j' (by omega)
    · rintro ⟨k, co, d'⟩ ⟨-, -, hl', F', hC', hF1, hF2⟩
      refine Sat.pure ⟨by rw [offs_succ rs hi], hl', F', hC', ?_⟩
      intro i' j' hi' hj'
      by_cases e : i' = i
      · subst e; exact hF2 j' hj'
      · exact hF1 i' j' (by omega) hj'
  · rintro ⟨ro, d⟩ ⟨-, hl, F, hC, hF⟩
    refine Sat.pure ⟨rfl, rfl, rfl, rfl, rfl, hl, ?_⟩
    intro i j hi hj
    obtain ⟨M, h1, h2⟩ := hF i j hi hj
    exact ⟨M, hC.get hi hj h1, h2⟩

/-- The product of two grids, for any arithmetic: `Good i j l` is what is known of the cell (i,j) after `l` products
have been accumulated.  The second grid may have more rows than the first has columns. -/
theorem mul_gen' {mul add : α → α → Res α} {A B : Blocks α} {nr nk nk' nc : Nat} {InA InB : Nat → Nat → α → Prop}
    (Good : Nat → Nat → Nat → α → Prop)
    (hA : A.Grid nr nk InA) (hB : B.Grid nk' nc InB) (hle : nk ≤ nk') (hk0 : 0 < nk)
    (first : ∀ i j MA MB, i < nr → j < nc → InA i 0 MA → InB 0 j MB → Sat (mul MA MB) (Good i j 1))
    (step : ∀ i j l S MA MB, i < nr → j < nc → l + 1 < nk → Good i j (l+1) S → InA i (l+1) MA → InB (l+1) j MB →
      Sat (mul MA MB) (fun P => Sat (add S P) (Good i j (l+2)))) :
    Sat (mulWith mul add A B) (fun C => C.ubRows = A.ubRows ∧ C.ubCols = B.ubCols ∧
      C.Grid nr nc (fun i j => Good i j nk)) := by
  have fit := View.plain_fits .col nr nc
  unfold mulWith
  simp only [hA.rows, hB.cols]
  let v := View.plain .col nr nc
  have hv : Dense.view (⟨.col, ⟨nr, nc, 0⟩, Buf.alloc (nr * nc)⟩ : Dense α) = v := rfl
  simp only [hv]
  let GoodO : Nat → Nat → Nat → Option α → Prop := fun i j l x => ∃ S, x = some S ∧ Good i j l S
  refine Sat.bind (Sat.raw (fun i (d : Buf α) => d.length = nr * nc ∧
    ∃ F, v.Cells d F ∧ ∀ i' j', i' < i → j' < nc → GoodO i' j' nk (F i' j')) ?_ ?_) ?_
  · exact ⟨by simp, _, View.alloc_cells fit, fun _ _ h => by omega⟩
  · rintro i d hi ⟨hl, F, hC, hF⟩
    refine Sat.bind (Sat.raw (fun j (u : Nat × Buf α) => u.1 = v.base + v.pos i j ∧ u.2.length = nr * nc ∧
      ∃ F, v.Cells u.2 F ∧ (∀ i' j', i' < i → j' < nc → GoodO i' j' nk (F i' j')) ∧
        ∀ j', j' < j → GoodO i j' nk (F i j')) ?_ ?_) ?_
    · refine ⟨?_, hl, F, hC, hF, fun _ h => by omega⟩
      rw [← View.rowAt]; simp
    · rintro j ⟨p, d⟩ hj ⟨h1, hl, F, hC, hF, hF'⟩
      simp only at h1 hl hC
      subst h1
      have hstride : 0 < A.grid.view.rowStride := View.rowStride_pos hA.fits (i := i) (by rw [hA.view]; exact hi)
      have hend : A.grid.view.rowEnd i = A.grid.view.rowBegin i + nk * A.grid.view.rowStride := by
        rw [View.rowEnd_eq]; congr 2; rw [hA.view]; rfl
      have hne : A.grid.view.rowBegin i ≠ A.grid.view.rowEnd i := by
        rw [hend]
        have : 0 < nk * A.grid.view.rowStride := Nat.mul_pos hk0 hstride
        omega
      rw [if_neg hne]
      -- first product
      have readA : ∀ {l}, l < nk → ∃ M, A.grid.data.read (A.grid.view.rowBegin i + l * A.grid.view.rowStride) = .ok M ∧
          InA i l M := by
        intro l hl'; rw [View.rowAt]; exact hA.read hi hl'
      have readB : ∀ {l}, l < nk → ∃ M, B.grid.data.read (B.grid.view.colBegin j + l * B.grid.view.colStride) = .ok M ∧
          InB l j M := by
        intro l hl'; rw [View.colAt]; exact hB.read (Nat.lt_of_lt_of_le hl' hle) hj
      obtain ⟨MA, eA, iA⟩ := readA hk0
      obtain ⟨MB, eB, iB⟩ := readB hk0
      simp only [Nat.zero_mul, Nat.add_zero] at eA eB
      refine Sat.read eA (Sat.read eB ?_)
      refine Sat.bind (first i j _ _ hi hj iA iB) ?_
      intro P hP
      refine Sat.writeCell (i := i) (j := j) hC (by rw [hl]; exact fit) hi hj rfl ?_
      intro d1 hl1 hC1
      refine Sat.bind (P := fun w : Nat × Buf α => w.2.length = nr * nc ∧ ∃ F', v.Cells w.2 F' ∧ GoodO i j nk (F' i j) ∧
        ∀ i' j', ¬ (i' = i ∧ j' = j) → F' i' j' = F i' j') ?_ ?_
      · rw [ptrLoop_eq _ (nk - 1) _ _ _ _ (fun _ => hstride) (by
          rw [hend]
          obtain ⟨n, hn⟩ : ∃ n, nk = n + 1 := ⟨nk - 1, by omega⟩
          rw [hn, Nat.add_sub_cancel]; ring)]
        refine Sat.mono (Sat.loop (fun l (w : Nat × Buf α) => w.1 = B.grid.view.colBegin j + (l + 1) * B.grid.view.colStride ∧
          w.2.length = nr * nc ∧ ∃ F', v.Cells w.2 F' ∧ GoodO i j (l + 1) (F' i j) ∧
            ∀ i' j', ¬ (i' = i ∧ j' = j) → F' i' j' = F i' j') ?_ ?_) ?_
        · refine ⟨by simp, by simp only at hl1 ⊢; omega, _, hC1, ?_, ?_⟩
          · simp only [and_self, if_true]
            exact ⟨_, rfl, hP⟩
          · intro i' j' hn
            rw [if_neg hn]
        · rintro l ⟨pb, dd⟩ hlk ⟨h1, hl2, F', hC2, ⟨M, eM, iM⟩, hrest⟩
          simp only at h1 hl2 hC2
          subst h1
          have hl3 : l + 1 < nk := by omega
          obtain ⟨MA, eA, iA⟩ := readA hl3
          obtain ⟨MB, eB, iB⟩ := readB hl3
          refine Sat.read (hC2.read hi hj eM) ?_
          rw [show A.grid.view.rowBegin i + A.grid.view.rowStride + l * A.grid.view.rowStride = A.grid.view.rowBegin i + (l+1) * A.grid.view.rowStride by ring]
          refine Sat.read eA (Sat.read eB ?_)
          refine Sat.bind (step i j l M _ _ hi hj hl3 iM iA iB) ?_
          intro P hP
          refine Sat.bind hP ?_
          intro S hS
          refine Sat.writeCell (i := i) (j := j) hC2 (by rw [hl2]; exact fit) hi hj rfl ?_
          intro d3 hl3' hC3
          refine Sat.pure ⟨by simp only; ring, by simp only at hl3' ⊢; omega, _, hC3, ?_, ?_⟩
          · simp only [and_self, if_true]
            exact ⟨_, rfl, hS⟩
          · intro i' j' hn
            rw [if_neg hn]
            exact hrest i' j' hn
        · rintro ⟨pb, dd⟩ ⟨-, hl2, F', hC2, hG, hrest⟩
          rw [show nk - 1 + 1 = nk by omega] at hG
          exact ⟨hl2, F', hC2, hG, hrest⟩
      · rintro ⟨pb, dd⟩ ⟨hl2, F', hC2, hG, hrest⟩
        refine Sat.pure ⟨?_, hl2, F', hC2, ?_, ?_⟩
        · show _ + v.rowStride = _
          rw [← View.rowAt, ← View.rowAt]; ring
        · intro i' j' hi' hj'
          rw [hrest i' j' (by omega)]
          exact hF i' j' hi' hj'
        · intro j' hj'
          by_cases e : j' = j
          · subst e; exact hG
          · rw [hrest i j' (by omega)]
            exact hF' j' (by omega)
    · rintro ⟨p, dd⟩ ⟨-, hl2, F', hC2, hF1, hF2⟩
      refine Sat.pure ⟨hl2, F', hC2, ?_⟩
      intro i' j' hi' hj'
      by_cases e : i' = i
      · subst e; exact hF2 j' hj'
      · exact hF1 i' j' (by omega) hj'
  · rintro d ⟨hl, F, hC, hF⟩
    refine Sat.pure ⟨rfl, rfl, rfl, rfl, rfl, hl, ?_⟩
    intro i j hi hj
    obtain ⟨S, eM, iM⟩ := hF i j hi hj
    exact ⟨_, hC.get hi hj eM, iM⟩

/-- The product of two grids of matching sizes. -/
theorem mul_gen {mul add : α → α → Res α} {A B : Blocks α} {nr nk nc : Nat} {InA InB : Nat → Nat → α → Prop}
    (Good : Nat → Nat → Nat → α → Prop)
    (hA : A.Grid nr nk InA) (hB : B.Grid nk nc InB) (hk0 : 0 < nk)
    (first : ∀ i j MA MB, i < nr → j < nc → InA i 0 MA → InB 0 j MB → Sat (mul MA MB) (Good i j 1))
    (step : ∀ i j l S MA MB, i < nr → j < nc → l + 1 < nk → Good i j (l+1) S → InA i (l+1) MA → InB (l+1) j MB →
      Sat (mul MA MB) (fun P => Sat (add S P) (Good i j (l+2)))) :
    Sat (mulWith mul add A B) (fun C => C.ubRows = A.ubRows ∧ C.ubCols = B.ubCols ∧
      C.Grid nr nc (fun i j => Good i j nk)) :=
  mul_gen' Good hA hB (le_refl nk) hk0 first step

end Blocks

namespace Blocked

/-- If every block conversion succeeds and its elements are related to the originals by `Q`, the generated
blocked matrix denotes some matrix related to the original by `Q`. -/
theorem generate_sat [LinearOrder R] [Zero R] [Add R] [Neg R] [NatCast R] [Div R] (b : Build) (rnd : R → R) (t : Settings R) {A : Dense R} {rs cs : List Nat}
    {f : Nat → Nat → R} (hA : A.Is rs.sum cs.sum f) (Q : R → R → Prop)
    (hconv : ∀ i j, i < rs.length → j < cs.length →
      Sat (convertMatrix b rnd t (.sub A (rs.getD i 0) (cs.getD j 0) (offs rs i) (offs cs j)))
        (fun kM => ∃ g, kM.2.Is (rs.getD i 0) (cs.getD j 0) g ∧
          ∀ a b, a < rs.getD i 0 → b < cs.getD j 0 → Q (f (offs rs i + a) (offs cs j + b)) (g a b))) :
    Sat (generate b rnd t A rs cs) (fun B => ∃ G, B.Is rs cs G ∧ ∀ i j, i < rs.sum → j < cs.sum → Q (f i j) (G i j)) := by
  refine Sat.mono (Blocks.generate_gen (In := fun i j M => ∃ g, M.Is (rs.getD i 0) (cs.getD j 0) g ∧
          ∀ a b, a < rs.getD i 0 → b < cs.getD j 0 → Q (f (offs rs i + a) (offs cs j + b)) (g a b)) ?_) ?_
  · intro i j hi hj
    refine Sat.bind (hconv i j hi hj) ?_
    rintro ⟨kd, M⟩ hM
    exact Sat.pure hM
  · rintro B ⟨h1, h2, hB⟩
    have hG : ∀ i j, ∃ (M : Mat R) (g : Nat → Nat → R), i < rs.length → j < cs.length → B.grid.get i j = .ok M ∧ M.Is (rs.getD i 0) (cs.getD j 0) g ∧
          ∀ a b, a < rs.getD i 0 → b < cs.getD j 0 → Q (f (offs rs i + a) (offs cs j + b)) (g a b) := by
      intro i j
      by_cases h : i < rs.length ∧ j < cs.length
      · obtain ⟨M, h1, g, h2, h3⟩ := hB.blocks i j h.1 h.2
        exact ⟨M, g, fun _ _ => ⟨h1, h2, h3⟩⟩
      · exact ⟨.one (.zero (Dim.mk' 0 0)), fun _ _ => 0, fun h1 h2 => absurd ⟨h1, h2⟩ h⟩
    choose M g hMg using hG
    refine ⟨fun I J => g (loc rs I).1 (loc cs J).1 (loc rs I).2 (loc cs J).2,
      ⟨hB.ori, hB.rows, hB.cols, hB.alloc, h1.trans hA.rows, h2.trans hA.cols, ?_⟩, ?_⟩
    · intro i j hi hj
      obtain ⟨h1, h2, h3⟩ := hMg i j hi hj
      refine ⟨M i j, h1, h2.congr ?_⟩
      intro a b ha hb
      rw [loc_offs rs hi ha, loc_offs cs hj hb]
    · intro I J hI hJ
      obtain ⟨a1, a2, a3⟩ := loc_spec rs hI
      obtain ⟨b1, b2, b3⟩ := loc_spec cs hJ
      have := (hMg _ _ a1 b1).2.2 _ _ a2 b2
      rw [a3, b3] at this
      exact this

/-- The product of two grids, for any arithmetic: `Good i j l` is what is known of the cell (i,j) after `l` products
have been accumulated. -/
theorem mul_gen [Zero R] [Add R] [Mul R] [DecidableEq R] {A B : Blocked R} {nr nk nc : Nat} {InA InB : Nat → Nat → Mat R → Prop}
    (Good : Nat → Nat → Nat → SMat R → Prop)
    (hA : A.Grid nr nk InA) (hB : B.Grid nk nc InB) (hk0 : 0 < nk)
    (first : ∀ i j MA MB, i < nr → j < nc → InA i 0 MA → InB 0 j MB → Sat (Mat.mul MA MB) (Good i j 1))
    (step : ∀ i j l S MA MB, i < nr → j < nc → l + 1 < nk → Good i j (l+1) S → InA i (l+1) MA → InB (l+1) j MB →
      Sat (Mat.mul MA MB) (fun P => Sat (Mat.add (· + ·) (.one S) (.one P)) (Good i j (l+2)))) :
    Sat (mul A B) (fun C => C.ubRows = A.ubRows ∧ C.ubCols = B.ubCols ∧
      C.Grid nr nc (fun i j M => ∃ S, M = .one S ∧ Good i j nk S)) := by
  refine Blocks.mul_gen (fun i j l M => ∃ S, M = .one S ∧ Good i j l S) hA hB hk0 ?_ ?_
  · intro i j MA MB hi hj iA iB
    refine Sat.bind (first i j MA MB hi hj iA iB) fun P hP => Sat.pure ⟨P, rfl, hP⟩
  · rintro i j l _ MA MB hi hj hl ⟨S, rfl, hS⟩ iA iB
    refine Sat.bind (step i j l S MA MB hi hj hl hS iA iB) fun P hP => Sat.pure ?_
    exact Sat.bind hP fun T hT => Sat.pure ⟨T, rfl, hT⟩

theorem mul_sat [NonUnitalNonAssocSemiring R] [DecidableEq R] {A B : Blocked R} {rs ks cs : List Nat} {f g : Nat → Nat → R}
    (hA : A.Is rs ks f) (hB : B.Is ks cs g) (hk : ks ≠ []) :
    Sat (mul A B) (fun C => C.Is rs cs (fun i j => ∑ l ∈ Finset.range ks.sum, f i l * g l j)) := by
  have hk0 : 0 < ks.length := List.length_pos_iff.2 hk
  let part : Nat → Nat → Nat → Nat → Nat → R := fun i j l a b => ∑ x ∈ Finset.range (offs ks l), f (offs rs i + a) x * g x (offs cs j + b)
  refine Sat.mono (mul_gen (fun i j l S => S.Is (rs.getD i 0) (cs.getD j 0) (part i j l)) hA.grid' hB.grid' hk0 ?_ ?_) ?_
  · intro i j MA MB hi hj iA iB
    refine Sat.mono (Mat.mul_sat iA iB) fun P hP => SMat.Is.congr hP (fun a b _ _ => ?_)
    have e0 : offs ks 1 = ks.getD 0 0 := by rw [show 1 = 0 + 1 from rfl, offs_succ ks hk0]; simp [offs]
    have e1 : offs ks 0 = 0 := by simp [offs]
    simp only [part, e0, e1, Nat.zero_add]
  · intro i j l S MA MB hi hj hl hS iA iB
    refine Sat.mono (Mat.mul_sat iA iB) fun P hP => ?_
    refine Sat.mono (Mat.add_sat (A := .one S) (B := .one P) hS hP) fun T hT => SMat.Is.congr hT (fun a b _ _ => ?_)
    have e0 : offs ks (l + 2) = offs ks (l + 1) + ks.getD (l + 1) 0 := offs_succ ks hl
    simp only [part, e0]
    rw [Finset.sum_range_add]
  · rintro C ⟨h1, h2, hC⟩
    refine ⟨hC.ori, hC.rows, hC.cols, hC.alloc, h1.trans hA.ubRows, h2.trans hB.ubCols, ?_⟩
    intro i j hi hj
    obtain ⟨M, e, S, rfl, hS⟩ := hC.blocks i j hi hj
    refine ⟨_, e, SMat.Is.congr hS (fun a b _ _ => ?_)⟩
    simp only [part, offs_length]

end Blocked
end BB
