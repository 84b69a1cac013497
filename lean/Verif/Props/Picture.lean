import Verif.Props.Info
import Verif.Lemmas.Alias
import Verif.Props.Cache

/-! C76: the picture of the block types. -/

namespace BB.Info

variable {R : Type}

theorem fillStriped_sat {pr pc nr nc ro co fuel : Nat} {d : Buf R} {F : Nat → Nat → Option R} (x : R) (hd : d.length = pr * pc)
    (hnr : 0 < nr) (hnc : 0 < nc) (h1 : ro + nr ≤ pr) (h2 : co + nc ≤ pc) (hm1 : pr < 2 ^ 64 - 1) (hm2 : nc < 2 ^ 31)
    (hf : pr * pc < fuel) (hF : (View.plain .col pr pc).Cells d F) :
    Sat (fillStriped ((View.plain .col pr pc).subStriped nr nc ro co) fuel x d) (fun d' => d'.length = pr * pc ∧
      (View.plain .col pr pc).Cells d' (fun I J => if ro ≤ I ∧ I < ro + nr ∧ co ≤ J ∧ J < co + nc then some x else F I J)) := by
  have fit := View.plain_fits .col pr pc
  have hok : ((View.plain .col pr pc).subStriped nr nc ro co).Ok := by
    refine ⟨hnr, hnc, ?_, ?_, ?_⟩
    · show nr < sizeMod
      unfold sizeMod; omega
    · show pr - nr + 1 < sizeMod
      unfold sizeMod; omega
    · show ((nc : Nat) : Int) ≤ intMax
      unfold intMax; omega
  have hle : nc * nr ≤ pr * pc := by
    rw [Nat.mul_comm]; exact Nat.mul_le_mul (by omega) (by omega)
  have hcell : ∀ t, ((View.plain .col pr pc).subStriped nr nc ro co).cell t = (((ro + t % nr) + (co + t / nr) * pr : Nat) : Int) := by
    intro t
    simp only [Striped.cell, View.subStriped, View.plain]
    rw [show nr + (pr - nr) = pr by omega]
    push_cast; ring
  unfold fillStriped
  have hb : ((View.plain .col pr pc).subStriped nr nc ro co).begin = ((View.plain .col pr pc).subStriped nr nc ro co).at 0 0 := by
    simp [Striped.begin, Striped.at]
  rw [hb, Striped.loop_eq hok _ (nc * nr) 0 0 fuel hnc hnr (by simp [View.subStriped]) (by omega)]
  refine Sat.mono (Sat.loop (fun t d => d.length = pr * pc ∧ (View.plain .col pr pc).Cells d (fun I J =>
    if ro ≤ I ∧ I < ro + nr ∧ co ≤ J ∧ J < co + nc ∧ (J - co) * nr + (I - ro) < t then some x else F I J)) ?_ ?_) ?_
  · exact ⟨hd, hF.congr fun I J _ _ => by rw [if_neg (by omega)]⟩
  · rintro t d ht ⟨hl, hC⟩
    have e : 0 + 0 * ((View.plain .col pr pc).subStriped nr nc ro co).cont + t = t := by omega
    rw [e, hcell]
    have hmod : t % nr < nr := Nat.mod_lt _ hnr
    have hdiv : t / nr < nc := Nat.div_lt_of_lt_mul (by rw [Nat.mul_comm]; exact ht)
    have hdm : (t / nr) * nr + t % nr = t := Nat.div_add_mod' t nr
    unfold Alias.writeI
    rw [if_neg (by omega), Int.toNat_natCast]
    have hwr := hC.write (by rw [hl]; exact fit) (i := ro + t % nr) (j := co + t / nr) x (by show ro + t % nr < pr; omega)
      (by show co + t / nr < pc; omega)
    obtain ⟨b', e1, e2, e3, -⟩ := hwr
    have hp : (View.plain .col pr pc).base + (View.plain .col pr pc).pos (ro + t % nr) (co + t / nr) = (ro + t % nr) + (co + t / nr) * pr := by
      simp [View.plain, View.pos]
    rw [hp] at e1
    refine ⟨b', e1, by omega, e3.congr fun I J _ _ => ?_⟩
    by_cases h : I = ro + t % nr ∧ J = co + t / nr
    · rw [if_pos h]
      obtain ⟨rfl, rfl⟩ := h
      rw [if_pos]
      refine ⟨Nat.le_add_right _ _, Nat.add_lt_add_left hmod _, Nat.le_add_right _ _, Nat.add_lt_add_left hdiv _, ?_⟩
      rw [Nat.add_sub_cancel_left, Nat.add_sub_cancel_left]; omega
    · rw [if_neg h]
      congr 1
      apply propext
      constructor
      · rintro ⟨a, b, c, dd, e⟩; exact ⟨a, b, c, dd, by omega⟩
      · rintro ⟨a, b, c, dd, e⟩
        refine ⟨a, b, c, dd, ?_⟩
        rcases Nat.lt_succ_iff_lt_or_eq.1 e with e | e
        · exact e
        · exfalso
          apply h
          have hI : I - ro < nr := by omega
          have m1 : ((J - co) * nr + (I - ro)) % nr = I - ro := by
            rw [Nat.add_comm, Nat.add_mul_mod_self_right, Nat.mod_eq_of_lt hI]
          have m2 : ((J - co) * nr + (I - ro)) / nr = J - co := by
            rw [Nat.add_comm, Nat.add_mul_div_right _ _ hnr, Nat.div_eq_of_lt hI, Nat.zero_add]
          rw [e] at m1 m2
          rw [m1, m2]; omega
  · rintro d ⟨hl, hC⟩
    refine ⟨hl, hC.congr fun I J _ _ => ?_⟩
    congr 1
    apply propext
    constructor
    · rintro ⟨a, b, c, dd, e⟩; exact ⟨a, b, c, dd⟩
    · rintro ⟨a, b, c, dd⟩
      refine ⟨a, b, c, dd, ?_⟩
      have : (J - co + 1) * nr ≤ nc * nr := Nat.mul_le_mul_right _ (by omega)
      rw [Nat.add_mul, Nat.one_mul] at this
      omega

/-- Assigning the element (a,b) of a submatrix. -/
theorem set_sat {pr pc nr nc ro co a b : Nat} {d : Buf R} {F : Nat → Nat → Option R} (x : R) (hd : d.length = pr * pc)
    (h1 : ro + nr ≤ pr) (h2 : co + nc ≤ pc) (ha : a < nr) (hb : b < nc) (hF : (View.plain .col pr pc).Cells d F) :
    Sat (((View.plain .col pr pc).sub nr nc ro co).set d a b x) (fun d' => d'.length = pr * pc ∧
      (View.plain .col pr pc).Cells d' (fun I J => if I = ro + a ∧ J = co + b then some x else F I J)) := by
  rw [View.set_eq (v := (View.plain .col pr pc).sub nr nc ro co) ha hb]
  obtain ⟨b', e1, e2, e3, -⟩ := hF.write (by rw [hd]; exact View.plain_fits .col pr pc) (i := ro + a) (j := co + b) x
    (by show ro + a < pr; omega) (by show co + b < pc; omega)
  have hp : ((View.plain .col pr pc).sub nr nc ro co).base + ((View.plain .col pr pc).sub nr nc ro co).pos a b =
      (View.plain .col pr pc).base + (View.plain .col pr pc).pos (ro + a) (co + b) := by
    simp only [View.plain, View.sub, View.pos]; ring
  rw [hp]
  exact ⟨b', e1, by omega, e3⟩

theorem border_sat [Zero R] {pr pc nr nc ro co w : Nat} {d : Buf R} {F : Nat → Nat → Option R} (hd : d.length = pr * pc)
    (h1 : ro + nr ≤ pr) (h2 : co + nc ≤ pc) (hw : w ≤ nc) (hw' : w ≤ nr ∨ w = nc) (hF : (View.plain .col pr pc).Cells d F) :
    Sat (border ((View.plain .col pr pc).sub nr nc ro co) w d) (fun d' => d'.length = pr * pc ∧
      (View.plain .col pr pc).Cells d' (fun I J => if ro ≤ I ∧ I < ro + nr ∧ co ≤ J ∧ J < co + nc ∧ (I < ro + w ∨ J < co + w) then some 0 else F I J)) := by
  unfold border
  refine Sat.mono (Sat.raw (fun k d => d.length = pr * pc ∧ (View.plain .col pr pc).Cells d (fun I J =>
    if ro ≤ I ∧ I < ro + nr ∧ co ≤ J ∧ J < co + nc ∧ (J < co + k ∨ (I < ro + k ∧ co + w ≤ J)) then some 0 else F I J)) ?_ ?_) ?_
  · exact ⟨hd, hF.congr fun I J _ _ => by rw [if_neg (by omega)]⟩
  · rintro k d hk ⟨hl, hC⟩
    refine Sat.bind (P := fun d => d.length = pr * pc ∧ (View.plain .col pr pc).Cells d (fun I J =>
      if ro ≤ I ∧ I < ro + nr ∧ co ≤ J ∧ J < co + nc ∧ (J < co + (k+1) ∨ (I < ro + k ∧ co + w ≤ J)) then some 0 else F I J)) ?_ ?_
    · refine Sat.mono (Sat.raw (n := nr) (fun m d => d.length = pr * pc ∧ (View.plain .col pr pc).Cells d (fun I J =>
        if ro ≤ I ∧ I < ro + nr ∧ co ≤ J ∧ J < co + nc ∧ (J < co + k ∨ (J = co + k ∧ I < ro + m) ∨ (I < ro + k ∧ co + w ≤ J)) then some 0 else F I J)) ?_ ?_) ?_
      · refine ⟨hl, hC.congr fun I J _ _ => ?_⟩
        congr 1; apply propext; omega
      · rintro m d hm ⟨hl, hC⟩
        refine (set_sat (0 : R) hl h1 h2 hm (show k < nc by omega) hC).mono ?_
        rintro d' ⟨hl', hC'⟩
        refine ⟨hl', hC'.congr fun I J _ _ => ?_⟩
        by_cases h : I = ro + m ∧ J = co + k
        · rw [if_pos h, if_pos (by omega)]
        · rw [if_neg h]
          congr 1; apply propext; omega
      · rintro d ⟨hl, hC⟩
        refine ⟨hl, hC.congr fun I J _ _ => ?_⟩
        congr 1; apply propext; omega
    · rintro d ⟨hl, hC⟩
      show Sat (ptrLoop w nc 1 _ d) _
      rw [ptrLoop_eq _ (nc - w) w nc 1 d (by omega) (by omega)]
      refine Sat.mono (Sat.loop (fun m d => d.length = pr * pc ∧ (View.plain .col pr pc).Cells d (fun I J =>
        if ro ≤ I ∧ I < ro + nr ∧ co ≤ J ∧ J < co + nc ∧ (J < co + (k+1) ∨ (I < ro + k ∧ co + w ≤ J) ∨ (I = ro + k ∧ co + w ≤ J ∧ J < co + w + m)) then some 0 else F I J)) ?_ ?_) ?_
      · refine ⟨hl, hC.congr fun I J _ _ => ?_⟩
        congr 1; apply propext; omega
      · rintro m d hm ⟨hl, hC⟩
        have : k < nr := by omega
        refine (set_sat (0 : R) hl h1 h2 this (show w + m * 1 < nc by omega) hC).mono ?_
        rintro d' ⟨hl', hC'⟩
        refine ⟨hl', hC'.congr fun I J _ _ => ?_⟩
        by_cases h : I = ro + k ∧ J = co + (w + m * 1)
        · rw [if_pos h, if_pos (by omega)]
        · rw [if_neg h]
          congr 1; apply propext; omega
      · rintro d ⟨hl, hC⟩
        refine ⟨hl, hC.congr fun I J _ _ => ?_⟩
        congr 1; apply propext; omega
  · rintro d ⟨hl, hC⟩
    refine ⟨hl, hC.congr fun I J _ _ => ?_⟩
    congr 1; apply propext; omega

/-- A border of width `w` fits a block with `m` rows and `n` columns. -/
def BorderFits (w m n : Nat) : Prop := w ≤ n ∧ (w ≤ m ∨ w = n)

/-- The picture: element (a,b) of block (i,j) shows the type of the block, except in the border. -/
def shown [Zero R] (pow : Nat → R) (w : Nat) (t : Nat → Nat → Nat) (rs cs : List Nat) (I J : Nat) : R :=
  if (loc rs I).2 < w ∨ (loc cs J).2 < w then 0 else pow (t (loc rs I).1 (loc cs J).1)

/-- C76: the picture has the dimensions of the matrix; element (a,b) of block (i,j) is `10^-type` of the block unless
it lies in the first `w` rows or columns of the block, where it is 0.  Every element is set, nothing is written
outside the picture. -/
theorem C76_picture_partial [Zero R] (pow : Nat → R) (w : Nat) {types : Dense Nat} {dims : Dense (Nat × Nat)} {rs cs : List Nat}
    {t : Nat → Nat → Nat} (ht : types.Is rs.length cs.length t) (hto : types.ori = .col)
    (hdm : dims.Is rs.length cs.length (fun i j => (rs.getD i 0, cs.getD j 0))) (hdo : dims.ori = .col)
    (hrs : ∀ i, i < rs.length → 0 < rs.getD i 0) (hcs : ∀ j, j < cs.length → 0 < cs.getD j 0 ∧ cs.getD j 0 < 2 ^ 31)
    (hm : rs.sum < 2 ^ 64 - 1)
    (hw : ∀ i j, i < rs.length → j < cs.length → BorderFits w (rs.getD i 0) (cs.getD j 0)) :
    ∃ D g, picture pow w rs.sum cs.sum types dims = .ok D ∧ D.Is rs.sum cs.sum g ∧
      ∀ i j a b, i < rs.length → j < cs.length → a < rs.getD i 0 → b < cs.getD j 0 →
        g (offs rs i + a) (offs cs j + b) = if a < w ∨ b < w then 0 else pow (t i j) := by
  suffices h : Sat (picture pow w rs.sum cs.sum types dims) (fun D => D.Is rs.sum cs.sum (shown pow w t rs cs)) by
    obtain ⟨D, e, h⟩ := h
    refine ⟨D, _, e, h, fun i j a b hi hj ha hb => ?_⟩
    unfold shown
    rw [loc_offs rs hi ha, loc_offs cs hj hb]
  unfold picture
  rw [ht.rows]
  have hW : (Dense.new .col rs.sum cs.sum : Dense R).view = View.plain .col rs.sum cs.sum := rfl
  simp only [hW]
  have htv : types.view = View.plain .col rs.length cs.length := by rw [ht.view_rows, hto]
  have hdv : dims.view = View.plain .col rs.length cs.length := by rw [hdm.view_rows, hdo]
  have hfit : types.view.Fits types.data.length := ht.fits
  refine Sat.bind (Sat.raw (fun i (s : Nat × Nat × Buf R) => (cs ≠ [] → s.1 = offs rs i) ∧ s.2.2.length = rs.sum * cs.sum ∧
    ∃ F, (View.plain .col rs.sum cs.sum).Cells s.2.2 F ∧ ∀ I J, I < offs rs i → J < cs.sum → F I J = some (shown pow w t rs cs I J)) ?_ ?_) ?_
  · exact ⟨fun _ => rfl, by simp [Dense.new], _, View.alloc_cells (View.plain_fits .col _ _), fun I J hI => by simp [offs] at hI⟩
  · rintro i ⟨ro, tmp, d⟩ hi ⟨h1, hl, F, hC, hF⟩
    simp only at h1 hl hC hF
    have hsi := offs_le_sum rs hi
    unfold pictureRow
    refine Sat.bind (Sat.rowLoop hfit (i := i) (by rw [htv]; exact hi)
      (fun j (u : Nat × Nat × Nat × Buf R) => u.1 = dims.view.base + dims.view.pos i j ∧ u.2.1 = offs cs j ∧ (0 < j → u.2.2.1 = rs.getD i 0) ∧
        u.2.2.2.length = rs.sum * cs.sum ∧
        ∃ F, (View.plain .col rs.sum cs.sum).Cells u.2.2.2 F ∧
          (∀ I J, I < offs rs i → J < cs.sum → F I J = some (shown pow w t rs cs I J)) ∧
          (∀ I J, offs rs i ≤ I → I < offs rs (i+1) → J < offs cs j → F I J = some (shown pow w t rs cs I J))) ?_ ?_) ?_
    · refine ⟨?_, rfl, by omega, hl, F, hC, hF, fun I J _ _ hJ => by simp [offs] at hJ⟩
      rw [← View.rowAt]; simp
    · rintro j ⟨q, co, tmp, d⟩ hj ⟨h0, h1', -, hl, F, hC, hF, hF'⟩
      simp only at h0 h1' hl hC
      rw [htv] at hj
      have hj : j < cs.length := hj
      have hsj := offs_le_sum cs hj
      obtain rfl := h1 (by rintro rfl; simp at hj)
      subst h1'
      subst h0
      unfold pictureStep
      refine Sat.read (v := (rs.getD i 0, cs.getD j 0)) ?_ ?_
      · have := hdm.read hi hj
        rw [hdv]
        rw [hdo] at this
        simpa [View.plain] using this
      refine Sat.read (v := t i j) ?_ ?_
      · have := ht.read hi hj
        rw [htv]
        rw [hto] at this
        simpa [View.plain] using this
      simp only
      refine Sat.bind (fillStriped_sat (pow (t i j)) hl (hrs i hi) (hcs j hj).1 hsi hsj hm (hcs j hj).2 (by rw [hl]; exact Nat.lt_succ_self _) hC) ?_
      rintro d1 ⟨hl1, hC1⟩
      refine Sat.bind (border_sat hl1 hsi hsj (hw i j hi hj).1 (hw i j hi hj).2 hC1) ?_
      rintro d2 ⟨hl2, hC2⟩
      refine Sat.pure ⟨?_, by rw [offs_succ cs hj], fun _ => rfl, hl2, _, hC2, ?_, ?_⟩
      · show dims.view.base + dims.view.pos i j + dims.view.rowStride = _
        rw [← View.rowAt, ← View.rowAt]; ring
      · intro I J hI hJ
        rw [if_neg (by omega), if_neg (by omega)]
        exact hF I J hI hJ
      · intro I J hI hI' hJ
        rw [offs_succ rs hi] at hI'
        rw [offs_succ cs hj] at hJ
        by_cases hin : offs rs i ≤ I ∧ I < offs rs i + rs.getD i 0 ∧ offs cs j ≤ J ∧ J < offs cs j + cs.getD j 0
        · have eI : I = offs rs i + (I - offs rs i) := by omega
          have eJ : J = offs cs j + (J - offs cs j) := by omega
          have lI : loc rs I = (i, I - offs rs i) := by
            conv_lhs => rw [eI]
            exact loc_offs rs hi (by omega)
          have lJ : loc cs J = (j, J - offs cs j) := by
            conv_lhs => rw [eJ]
            exact loc_offs cs hj (by omega)
          unfold shown
          rw [lI, lJ]
          simp only
          by_cases hb : I - offs rs i < w ∨ J - offs cs j < w
          · rw [if_pos hb, if_pos (by omega)]
          · rw [if_neg hb, if_neg (by omega), if_pos hin]
        · rw [if_neg (by omega), if_neg hin]
          exact hF' I J hI (by rw [offs_succ rs hi]; exact hI') (by omega)
    · rintro ⟨q, co, tmp', d'⟩ ⟨-, -, ht', hl', F', hC', hF1, hF2⟩
      rw [htv] at hF2 ht'
      simp only [View.plain] at ht' hF2
      refine Sat.pure ⟨?_, hl', F', hC', ?_⟩
      · intro hcs
        simp only
        rw [h1 hcs, ht' (List.length_pos_iff.2 hcs), offs_succ rs hi]
      · intro I J hI hJ
        by_cases hlt : I < offs rs i
        · exact hF1 I J hlt hJ
        · exact hF2 I J (by omega) hI (by rw [offs_length]; exact hJ)
  · rintro ⟨ro, tmp, d⟩ ⟨-, hl, F, hC, hF⟩
    refine Sat.pure (Dense.is_of_cells rfl rfl rfl hl (hC.congr ?_))
    intro I J hI hJ
    exact hF I J (by rw [offs_length]; exact hI) hJ

/-! ### A border that does not fit -/

/-- Every step of a loop that ends normally ended normally, from a state that satisfies the invariant. -/
theorem loopN_ok_inv {σ : Type} {n : Nat} {f : Nat → σ → Res σ} {s r : σ} (I : Nat → σ → Prop) (h0 : I 0 s)
    (hs : ∀ k s s', k < n → I k s → f k s = .ok s' → I (k+1) s') (h : loopN n f s = .ok r) :
    I n r ∧ ∀ i, i < n → ∃ t t', I i t ∧ f i t = .ok t' := by
  induction n generalizing r with
  | zero => cases h; exact ⟨h0, fun i hi => absurd hi (Nat.not_lt_zero _)⟩
  | succ n ih =>
    rw [loopN] at h
    cases e : loopN n f s with
    | error x => rw [e] at h; cases h
    | ok t =>
      rw [e] at h
      have h : f n t = .ok r := h
      obtain ⟨a, b⟩ := ih (fun k s s' hk => hs k s s' (by omega)) e
      refine ⟨hs n t r (by omega) a h, fun i hi => ?_⟩
      by_cases hin : i = n
      · subst hin; exact ⟨t, r, a, h⟩
      · exact b i (by omega)

theorem ptrLoopAux_runaway {σ : Type} (f : Nat → σ → Res σ) (fuel cur stop : Nat) (s : σ) (h : stop < cur) :
    ∃ e, ptrLoopAux fuel cur stop 1 f s = .error e := by
  induction fuel generalizing cur s with
  | zero => exact ⟨_, rfl⟩
  | succ fuel ih =>
    rw [ptrLoopAux, if_neg (by omega)]
    cases f cur s with
    | error e => exact ⟨e, rfl⟩
    | ok s' => exact ih (cur + 1) s' (by omega)

theorem border_fits [Zero R] {v : View} {w : Nat} {d d' : Buf R} (hw : 0 < w) (h : border v w d = .ok d') :
    BorderFits w v.rows v.cols := by
  unfold border at h
  rw [rawLoop] at h
  have steps := (loopN_ok_inv (fun _ _ => True) trivial (fun _ _ _ _ _ _ => trivial) h).2
  have hcol : ∀ i, i < w → ∃ t t', ptrLoop w v.cols 1 (fun j (d : Buf R) => v.set d i j 0) t = .ok t' := by
    intro i hi
    obtain ⟨t, t', -, e⟩ := steps i hi
    cases e1 : ptrLoop 0 v.rows 1 (fun j (d : Buf R) => v.set d j i 0) t with
    | error x => rw [e1] at e; cases e
    | ok t1 => rw [e1] at e; exact ⟨t1, t', e⟩
  have h1 : w ≤ v.cols := by
    by_contra hlt
    obtain ⟨t, t', e⟩ := hcol 0 hw
    obtain ⟨x, e'⟩ := ptrLoopAux_runaway (fun j (d : Buf R) => v.set d 0 j 0) (v.cols + 1) w v.cols t (by omega)
    unfold ptrLoop at e
    rw [e'] at e; cases e
  refine ⟨h1, ?_⟩
  by_contra hn
  obtain ⟨hn1, hn2⟩ := not_or.1 hn
  obtain ⟨t, t', e⟩ := hcol v.rows (by omega)
  obtain ⟨m, hm⟩ : ∃ m, v.cols - w = m + 1 := ⟨v.cols - w - 1, by omega⟩
  rw [ptrLoop_eq _ (v.cols - w) w v.cols 1 t (by omega) (by omega), hm,
    BB.Provider.loopN_first (e := .assertFail) (by simp [View.set, assertThat])] at e
  cases e

/-- C76 is false for wide borders: if the border does not fit one of the blocks the program does not get to the end. -/
theorem C76_wide_border_fails [Zero R] (pow : Nat → R) (w : Nat) {types : Dense Nat} {dims : Dense (Nat × Nat)} {rs cs : List Nat}
    {t : Nat → Nat → Nat} (ht : types.Is rs.length cs.length t) (hto : types.ori = .col)
    (hdm : dims.Is rs.length cs.length (fun i j => (rs.getD i 0, cs.getD j 0))) (hdo : dims.ori = .col) (rows cols : Nat)
    (hw : ∃ i j, i < rs.length ∧ j < cs.length ∧ ¬ BorderFits w (rs.getD i 0) (cs.getD j 0)) :
    ∀ D, picture pow w rows cols types dims ≠ .ok D := by
  intro D h
  obtain ⟨i0, j0, hi0, hj0, hbad⟩ := hw
  have htv : types.view = View.plain .col rs.length cs.length := by rw [ht.view_rows, hto]
  have hdv : dims.view = View.plain .col rs.length cs.length := by rw [hdm.view_rows, hdo]
  unfold picture at h
  simp only [] at h
  generalize hx : ptrLoop 0 _ 1 _ _ = x at h
  cases x with
  | error e => cases h
  | ok r =>
    rw [ht.rows, rawLoop] at hx
    obtain ⟨⟨ro, tmp, d⟩, s', -, e⟩ := (loopN_ok_inv (fun _ _ => True) trivial (fun _ _ _ _ _ _ => trivial) hx).2 i0 hi0
    unfold pictureRow at e
    simp only [] at e
    generalize hy : ptrLoop _ _ _ _ _ = y at e
    cases y with
    | error e' => cases e
    | ok u =>
      rw [View.rowLoop ht.fits (by rw [htv]; exact hi0)] at hy
      obtain ⟨⟨q, co, tmp1, d1⟩, u', hq, e2⟩ := (loopN_ok_inv (fun j (u : Nat × Nat × Nat × Buf R) => u.1 = dims.view.base + dims.view.pos i0 j)
        (by rw [← View.rowAt]; simp) (by
          rintro j ⟨q, co, tmp1, d1⟩ s' hj hq e2
          simp only at hq
          subst hq
          unfold pictureStep at e2
          simp only [] at e2
          obtain ⟨a1, -, e2⟩ := Cache.bind_eq_ok e2
          obtain ⟨a2, -, e2⟩ := Cache.bind_eq_ok e2
          obtain ⟨a3, -, e2⟩ := Cache.bind_eq_ok e2
          obtain ⟨a4, -, e2⟩ := Cache.bind_eq_ok e2
          cases e2
          show dims.view.base + dims.view.pos i0 j + dims.view.rowStride = _
          rw [← View.rowAt, ← View.rowAt]; ring) hy).2 j0 (by rw [htv]; exact hj0)
      simp only at hq
      subst hq
      unfold pictureStep at e2
      simp only [] at e2
      obtain ⟨nm, e3, e2⟩ := Cache.bind_eq_ok e2
      obtain ⟨a2, -, e2⟩ := Cache.bind_eq_ok e2
      obtain ⟨a3, -, e2⟩ := Cache.bind_eq_ok e2
      obtain ⟨a4, e4, -⟩ := Cache.bind_eq_ok e2
      have hnm : nm = (rs.getD i0 0, cs.getD j0 0) := by
        have := hdm.read hi0 hj0
        rw [hdv] at e3
        rw [hdo] at this
        have e5 : (View.plain .col rs.length cs.length).base + (View.plain .col rs.length cs.length).pos i0 j0
          = (View.plain .col rs.length cs.length).pos i0 j0 := by simp [View.plain]
        rw [e5, this] at e3
        exact (Except.ok.inj e3).symm
      have hpos : 0 < w := by
        by_contra h0
        exact hbad ⟨by omega, by omega⟩
      have := border_fits hpos e4
      rw [hnm] at this
      exact hbad this

/-- Non-vacuity: 2x2 blocks of sizes 2,3 x 4,1 with border 1 fit, with border 2 the last column does not. -/
example : (∀ i j, i < 2 → j < 2 → BorderFits 1 ([2,3].getD i 0) ([4,1].getD j 0)) ∧ ¬ BorderFits 2 ([2,3].getD 0 0) ([4,1].getD 1 0) := by
  unfold BorderFits
  constructor
  · intro i j hi hj
    have : i = 0 ∨ i = 1 := by omega
    have : j = 0 ∨ j = 1 := by omega
    rcases ‹i = 0 ∨ i = 1› with rfl | rfl <;> rcases ‹j = 0 ∨ j = 1› with rfl | rfl <;> decide
  · decide

end BB.Info
