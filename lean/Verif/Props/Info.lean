import Verif.Model.Info
import Verif.Props.Dispatch
import Verif.Props.Converter
import Verif.Props.Norm
import Verif.Props.Provider

/-! C75: information matrices of blocked matrices. -/

namespace BB.Info

variable {R α β T : Type}

theorem mapGrid_sat {f : α → Res β} {G : Dense α} {r c : Nat} {g : Nat → Nat → α} {h : Nat → Nat → β} (hG : G.Is r c g)
    (ho : G.ori = .col) (hf : ∀ i j, i < r → j < c → f (g i j) = .ok (h i j)) :
    Sat (mapGrid f G) (fun D => D.ori = .col ∧ D.Is r c h) := by
  unfold mapGrid
  rw [hG.rows, hG.cols]
  refine Sat.bind (Sat.raw (fun k (s : Nat × Buf β) => s.1 = k ∧ s.2.length = r * c ∧
    ∀ t, t < k → s.2[t]? = some (some (h (Dense.unpos .col r c t).1 (Dense.unpos .col r c t).2))) ?_ ?_) ?_
  · exact ⟨rfl, by simp [Dense.new], fun t ht => absurd ht (Nat.not_lt_zero _)⟩
  · rintro k ⟨q, d⟩ hk ⟨rfl, hl, hd⟩
    simp only at hk hl hd ⊢
    rw [hG.alloc] at hk
    have hr := hG.raw hk
    rw [ho] at hr
    obtain ⟨u1, u2, -⟩ := Dense.unpos_spec .col hk
    unfold mapStep
    rw [hr, bind_ok', hf _ _ u1 u2, bind_ok']
    refine Sat.writeRaw (by simp only; omega) ?_
    intro b' hl' hb'
    refine Sat.pure ⟨rfl, by simp only at hl' ⊢; omega, fun t ht => ?_⟩
    simp only at hb' ⊢
    rw [hb' t]
    by_cases e : t = q
    · rw [if_pos e, e]
    · rw [if_neg e]; exact hd t (by omega)
  · rintro ⟨q, d⟩ ⟨-, hl, hd⟩
    rw [hG.alloc] at hd
    exact Sat.pure ⟨rfl, Dense.is_of_raw hl hd⟩

/-- C75: the type matrix has the dimensions of the grid and its entry (i,j) is the position in the type list of the
type of block (i,j); the dimension matrix holds rows and columns of the blocks; for any norm function the norm matrix
holds the norms.  All three in every build. -/
theorem C75_types_dimensions_norms [DecidableEq T] (b : Build) (L : List T) (dims : T → α → Nat × Nat) (nrm : T → α → Res R)
    {G : Dense (Dispatch.Obj T α)} {r c : Nat} {g : Nat → Nat → Dispatch.Obj T α} {x : Nat → Nat → R} (hG : G.Is r c g)
    (ho : G.ori = .col) (hL : ∀ i j, i < r → j < c → (g i j).ty ∈ L)
    (hn : ∀ i j, i < r → j < c → nrm (g i j).ty (g i j).val = .ok (x i j)) :
    (∃ D t, typeMatrix L G = .ok D ∧ D.Is r c t ∧ ∀ i j, i < r → j < c → L[t i j]? = some (g i j).ty) ∧
    (∃ D, dimMatrix b L dims G = .ok D ∧ D.Is r c (fun i j => dims (g i j).ty (g i j).val)) ∧
    (∃ D, normMatrix b L nrm G = .ok D ∧ D.Is r c x) := by
  refine ⟨?_, ?_, ?_⟩
  · obtain ⟨D, e, -, h⟩ := mapGrid_sat (f := fun o => .ok (Dispatch.getIndex o.ty L)) (h := fun i j => Dispatch.getIndex (g i j).ty L) hG ho
      (fun i j _ _ => rfl)
    exact ⟨D, _, e, h, fun i j hi hj => Dispatch.getIndex_getElem _ L (hL i j hi hj)⟩
  · obtain ⟨D, e, -, h⟩ := mapGrid_sat (f := fun o => do
      let r ← Dispatch.execIfIndex b L (fun t x => .ok (dims t x).1) o
      let c ← Dispatch.execIfIndex b L (fun t x => .ok (dims t x).2) o
      return (r, c)) (h := fun i j => dims (g i j).ty (g i j).val) hG ho
      (fun i j hi hj => by
        rw [Dispatch.C38_exec_if b L _ _ (hL i j hi hj), Dispatch.C38_exec_if b L _ _ (hL i j hi hj)]; rfl)
    exact ⟨D, e, h⟩
  · obtain ⟨D, e, -, h⟩ := mapGrid_sat (f := fun o => Dispatch.execIfIndex b L nrm o) (h := x) hG ho
      (fun i j hi hj => by rw [Dispatch.C38_exec_if b L _ _ (hL i j hi hj), hn i j hi hj])
    exact ⟨D, e, h⟩

/-- C75 for a matrix of converted windows, as the generator makes it: the entry of the type matrix is the position of
the first listed type whose two occupation conditions the window fulfils, and the dimension matrix holds the block
sizes. -/
theorem C75_generated [Field R] [LinearOrder R] [IsStrictOrderedRing R] (b : Build) (rnd : R → R) (hrnd : rnd 0 = 0) (t : Settings R)
    (A : Dense R) (f : Nat → Nat → R) (rs cs : List Nat)
    (hs : ∀ i j, i < rs.length → j < cs.length → (Src.sub A (rs.getD i 0) (cs.getD j 0) (offs rs i) (offs cs j)).Is (rs.getD i 0) (cs.getD j 0)
      (fun a b => f (offs rs i + a) (offs cs j + b)))
    (hD : 0 ≤ t.sigDouble) (hDF : t.sigDouble < t.sigSingle) (h1 : 1 ≤ t.denseDDouble) (h2 : 1 ≤ t.denseDSingle)
    {G : Dense (Dispatch.Obj Kind (Mat R))} {g : Nat → Nat → Dispatch.Obj Kind (Mat R)} (hG : G.Is rs.length cs.length g) (ho : G.ori = .col)
    (hg : ∀ i j, i < rs.length → j < cs.length →
      convertMatrix b rnd t (.sub A (rs.getD i 0) (cs.getD j 0) (offs rs i) (offs cs j)) = .ok ((g i j).ty, (g i j).val)) :
    (∃ D n, typeMatrix typeList G = .ok D ∧ D.Is rs.length cs.length n ∧
      ∀ i j, i < rs.length → j < cs.length → ∃ k, typeList[n i j]? = some k ∧
        Fulfils t (rs.getD i 0) (cs.getD j 0) (fun a b => f (offs rs i + a) (offs cs j + b)) k ∧
        ∀ m k', m < n i j → typeList[m]? = some k' →
          ¬ Fulfils t (rs.getD i 0) (cs.getD j 0) (fun a b => f (offs rs i + a) (offs cs j + b)) k') ∧
    (∃ D, dimMatrix b typeList (fun _ M => (M.rows, M.cols)) G = .ok D ∧ D.Is rs.length cs.length (fun i j => (rs.getD i 0, cs.getD j 0))) := by
  have all : ∀ k : Kind, k ∈ typeList := by intro k; cases k <;> decide
  have hgi : ∀ i j, i < rs.length → j < cs.length → ∃ pre post, typeList = pre ++ (g i j).ty :: post ∧
      Fulfils t (rs.getD i 0) (cs.getD j 0) (fun a b => f (offs rs i + a) (offs cs j + b)) (g i j).ty ∧
      (∀ k' ∈ pre, ¬ Fulfils t (rs.getD i 0) (cs.getD j 0) (fun a b => f (offs rs i + a) (offs cs j + b)) k') ∧
      (g i j).val.rows = rs.getD i 0 ∧ (g i j).val.cols = cs.getD j 0 := by
    intro i j hi hj
    obtain ⟨pre, k, post, M, e1, e2, e3, e4, -, e5⟩ := C37_first_match b rnd hrnd t A _ _ _ _ _ _ _ (hs i j hi hj) hD hDF h1 h2
    obtain ⟨M', e6, -, hM⟩ := C36_contents_partial rnd hrnd t A _ _ _ _ _ _ _ (hs i j hi hj) hD hDF k
    rw [e5] at e6
    cases e6
    rw [hg i j hi hj] at e2
    have e7 := Except.ok.inj e2
    have hk : (g i j).ty = k := congrArg Prod.fst e7
    have hv : (g i j).val = M := congrArg Prod.snd e7
    rw [hk, hv]
    exact ⟨pre, post, e1, e3, e4, Blocked.mat_rows hM, Blocked.mat_cols hM⟩
  obtain ⟨⟨D, n, e1, e2, e3⟩, ⟨D', e4, e5⟩, -⟩ := C75_types_dimensions_norms b typeList (fun _ (M : Mat R) => (M.rows, M.cols))
    (fun _ _ => .ok (0 : R)) (x := fun _ _ => 0) hG ho (fun i j _ _ => all _) (fun _ _ _ _ => rfl)
  refine ⟨⟨D, n, e1, e2, fun i j hi hj => ?_⟩, D', e4, e5.congr fun i j hi hj => ?_⟩
  · obtain ⟨pre, post, h1, h2, h3, -, -⟩ := hgi i j hi hj
    refine ⟨_, e3 i j hi hj, h2, fun m k' hm hk' => h3 k' ?_⟩
    have hidx : n i j = pre.length := by
      have nd : typeList.Nodup := by decide
      have a1 := e3 i j hi hj
      have a2 : typeList[pre.length]? = some (g i j).ty := by rw [h1]; simp
      obtain ⟨l1, g1⟩ := List.getElem?_eq_some_iff.1 a1
      obtain ⟨l2, g2⟩ := List.getElem?_eq_some_iff.1 a2
      exact (List.Nodup.getElem_inj_iff nd).1 (g1.trans g2.symm)
    rw [h1, List.getElem?_append_left (by omega)] at hk'
    exact List.mem_of_getElem? hk'
  · obtain ⟨pre, post, -, -, -, h4, h5⟩ := hgi i j hi hj
    simp only [h4, h5]

/-- C75, norm matrix of real blocks: for blocks that are not two-part matrices (and whose sparse value arrays hold the
stored elements only) the entry is the 2-norm of the block. -/
theorem C75_norms_partial [DecidableEq T] (b : Build) (L : List T)
    {G : Dense (Dispatch.Obj T (Mat ℝ))} {r c : Nat} {g : Nat → Nat → Dispatch.Obj T (Mat ℝ)} (hG : G.Is r c g)
    (ho : G.ori = .col) (hL : ∀ i j, i < r → j < c → (g i j).ty ∈ L) (m n : Nat → Nat → Nat) (F : Nat → Nat → Nat → Nat → ℝ)
    (hF : ∀ i j, i < r → j < c → (g i j).val.Is (m i j) (n i j) (F i j) ∧ Normable .two (g i j).val ∧ ∃ A, (g i j).val = .one A) :
    ∃ D x, normMatrix b L (fun _ => blockNorm b) G = .ok D ∧ D.Is r c x ∧
      ∀ i j, i < r → j < c → IsNorm .two (m i j) (n i j) (F i j) (x i j) := by
  have : ∀ i j, ∃ x, (i < r → j < c → blockNorm b (g i j).val = .ok x ∧ IsNorm .two (m i j) (n i j) (F i j) x) := by
    intro i j
    by_cases h : i < r ∧ j < c
    · obtain ⟨h1, h2, A, e⟩ := hF i j h.1 h.2
      obtain ⟨x, e1, e2⟩ := C35_norm_partial .two _ _ _ _ h1 h2
      refine ⟨x, fun _ _ => ⟨?_, e2⟩⟩
      rw [e] at e1 ⊢
      exact e1
    · exact ⟨0, fun a b => absurd ⟨a, b⟩ h⟩
  choose x hx using this
  obtain ⟨-, -, D, e, h⟩ := C75_types_dimensions_norms b L (fun _ _ => (0, 0)) (fun _ => blockNorm b) hG ho hL (fun i j hi hj => (hx i j hi hj).1)
  exact ⟨D, x, e, h, fun i j hi hj => (hx i j hi hj).2⟩

/-- C75 is false for two-part blocks: where failures are compiled out their norm is reported as 0, else the call
fails. -/
theorem C75_two_part_norm_is_wrong (X1 X2 : SMat ℝ) :
    blockNorm .release (.two X1 X2) = .ok 0 ∧ blockNorm .debug (.two X1 X2) = .error .assertFail ∧
    blockNorm .exception (.two X1 X2) = .error (.throw "not implemented yet") := ⟨rfl, rfl, rfl⟩

/-- The norm of such a block is not 0: the block `(3) + (4)`. -/
theorem C75_two_part_norm_witness : ∃ X1 X2 : SMat ℝ, (Mat.two X1 X2).Is 1 1 (fun _ _ => 7) ∧
    blockNorm .release (.two X1 X2) = .ok 0 ∧ ¬ IsNorm .two 1 1 (fun _ _ => 7) 0 := by
  refine ⟨.dense (Dense.ofFn .col 1 1 fun _ _ => 3), .dense (Dense.ofFn .col 1 1 fun _ _ => 4), ⟨fun _ _ => 3, fun _ _ => 4,
    ⟨Dense.ofFn_is _ _ _ _, rfl⟩, ⟨Dense.ofFn_is _ _ _ _, rfl⟩, fun _ _ _ _ => by norm_num⟩, rfl, ?_⟩
  simp [IsNorm]
  norm_num

/-- C75, counting the types: for every blocked matrix with at least one block the counters are read before they are
set. -/
theorem C75_type_counting_is_ub [DecidableEq T] (L : List T) {G : Dense (Dispatch.Obj T α)} {r c : Nat} {g : Nat → Nat → Dispatch.Obj T α}
    (hG : G.Is r c g) (hr : 0 < r) (hc : 0 < c) : typeCounting L G = .error .ub := by
  have hpos : 0 < r * c := Nat.mul_pos hr hc
  unfold typeCounting
  rw [hG.alloc]
  obtain ⟨n, hn⟩ : ∃ n, r * c = n + 1 := ⟨r * c - 1, by omega⟩
  rw [hn, rawLoop]
  apply BB.Provider.loopN_first
  unfold countStep
  rw [hG.raw (t := 0) hpos, bind_ok']
  have : ∀ i, (Buf.alloc (Dispatch.getSize L) : Buf Nat).read i = .error .ub := by
    intro i
    unfold Buf.read Buf.alloc
    rw [List.getElem?_replicate]
    split <;> simp_all
  rw [this]
  rfl

/-- Non-vacuity: a grid of two blocks of different types. -/
example : ∃ (G : Dense (Dispatch.Obj Kind (Mat Int))) (g : Nat → Nat → Dispatch.Obj Kind (Mat Int)), G.Is 1 2 g ∧ G.ori = .col ∧
    (∀ i j, i < 1 → j < 2 → (g i j).ty ∈ typeList) ∧ (g 0 0).ty ≠ (g 0 1).ty :=
  ⟨_, _, Dense.ofFn_is .col 1 2 (fun _ j => if j = 0 then ⟨.zero, .one (.zero (Dim.mk' 2 2))⟩ else
    ⟨.denseD, .one (.dense (Dense.ofFn .col 2 3 (fun i j => (i + j : Nat))))⟩), rfl,
    fun i j _ _ => by split <;> simp [typeList], by simp⟩

end BB.Info
