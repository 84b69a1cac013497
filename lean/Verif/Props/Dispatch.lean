import Verif.Model.Dispatch
import Verif.Lemmas.Base
import Mathlib.Data.List.Dedup

/-!
# C38: dynamic dispatch
-/

namespace BB.Dispatch

variable {T α β : Type} [DecidableEq T]

theorem getIndex_getElem (t : T) (L : List T) (h : t ∈ L) : L[getIndex t L]? = some t := by
  induction L with
  | nil => cases h
  | cons u us ih =>
    unfold getIndex
    by_cases e : t = u
    · rw [if_pos e, e]; rfl
    · rw [if_neg e]
      rw [List.getElem?_cons_succ]
      exact ih ((List.mem_cons.1 h).resolve_left e)

theorem getIndex_missing (t : T) (L : List T) (h : t ∉ L) : getIndex t L = L.length := by
  induction L with
  | nil => rfl
  | cons u us ih =>
    unfold getIndex
    rw [if_neg (fun e => h (by simp [e])), ih (fun e => h (by simp [e])), List.length_cons]

theorem getSize_eq (L : List T) : getSize L = L.length := by
  induction L with
  | nil => rfl
  | cons u us ih => rw [getSize, ih, List.length_cons]

theorem getType_eq (i : Nat) (L : List T) : getType i L = L[i]? := by
  induction L generalizing i with
  | nil => cases i <;> rfl
  | cons u us ih =>
    cases i with
    | zero => rfl
    | succ i => rw [getType, ih, List.getElem?_cons_succ]

/-- C38, indices identify types: for every type list, the index of a listed type is below the size of the list
and leads back to that type; it is the first such position; different listed types have different indices; a type
that is not listed gets the size of the list as index. -/
theorem C38_index (L : List T) (t : T) :
    (t ∈ L → getIndex t L < getSize L ∧ getType (getIndex t L) L = some t ∧ ∀ i < getIndex t L, getType i L ≠ some t) ∧
    (∀ u ∈ L, getIndex t L = getIndex u L → t = u) ∧
    (t ∉ L → getIndex t L = getSize L) := by
  refine ⟨fun h => ⟨?_, ?_, ?_⟩, ?_, ?_⟩
  · rw [getSize_eq]
    exact (List.getElem?_eq_some_iff.1 (getIndex_getElem t L h)).1
  · rw [getType_eq]; exact getIndex_getElem t L h
  · intro i hi
    rw [getType_eq]
    clear h
    induction L generalizing i with
    | nil => simp
    | cons u us ih =>
      unfold getIndex at hi
      by_cases e : t = u
      · rw [if_pos e] at hi; cases hi
      · rw [if_neg e] at hi
        cases i with
        | zero => intro h; exact e (by simpa using h.symm)
        | succ i => rw [List.getElem?_cons_succ]; exact ih i (by omega)
  · intro u hu h
    have h1 := getIndex_getElem u L hu
    by_cases ht : t ∈ L
    · have h2 := getIndex_getElem t L ht
      rw [h, h1] at h2
      exact (Option.some.inj h2).symm
    · rw [← h, getIndex_missing t L ht] at h1
      simp at h1
  · intro h; rw [getSize_eq]; exact getIndex_missing t L h

theorem execIf_search (b : Build) (L M : List T) (t : T) (hL : t ∈ L) (hM : t ∈ M) (hsub : ∀ u ∈ M, u ∈ L) (e : T → Res β) :
    execIf b (typeChecker L (getIndex t L)) e M = e t := by
  have key : ∀ u ∈ M, typeChecker L (getIndex t L) u = .ok (decide (u = t)) := by
    intro u hu
    unfold typeChecker
    congr 1
    by_cases e : u = t
    · simp [e]
    · simp only [e, decide_false, beq_eq_false_iff_ne, ne_eq]
      exact fun h => e ((C38_index L u).2.1 t hL h)
  induction M with
  | nil => cases hM
  | cons u us ih =>
    cases us with
    | nil =>
      have : t = u := by simpa using hM
      subst this
      rw [execIf, key t (by simp)]
      simp
    | cons v vs =>
      rw [execIf, key u (by simp)]
      by_cases e : u = t
      · simp [e]
      · simp only [e, bind_ok', decide_false, Bool.false_eq_true, if_false]
        exact ih ((List.mem_cons.1 hM).resolve_left (fun h => e h.symm)) (fun w hw => hsub w (by simp [hw]))
          (fun w hw => key w (by simp [hw]))

/-- C38 for the functions that dispatch by search (getNbRows, getNorm, getOccupation, printing, conversion to
dense, ...): for every list and every object whose type is listed, in every build mode, the implementation for
exactly the object's type is invoked. -/
theorem C38_exec_if (b : Build) (L : List T) (f : T → α → Res β) (o : Obj T α) (h : o.ty ∈ L) :
    execIfIndex b L f o = f o.ty o.val := by
  unfold execIfIndex
  rw [execIf_search b L L o.ty h h (fun _ h => h)]
  simp [asType]

theorem execIf1_search (b : Build) (L M : List T) (t : T) (hL : t ∈ L) (hM : t ∈ M) (hsub : ∀ u ∈ M, u ∈ L) (e : T → Res β) :
    execIf1 b (typeChecker L (getIndex t L)) e M = e t := by
  have key : ∀ u ∈ M, typeChecker L (getIndex t L) u = .ok (decide (u = t)) := by
    intro u hu
    unfold typeChecker
    congr 1
    by_cases e : u = t
    · simp [e]
    · simp only [e, decide_false, beq_eq_false_iff_ne, ne_eq]
      exact fun h => e ((C38_index L u).2.1 t hL h)
  induction M with
  | nil => cases hM
  | cons u us ih =>
    cases us with
    | nil =>
      have : t = u := by simpa using hM
      subst this
      rw [execIf1, key t (by simp)]
      simp
    | cons v vs =>
      rw [execIf1, key u (by simp)]
      by_cases e : u = t
      · simp [e]
      · simp only [e, bind_ok', decide_false, Bool.false_eq_true, if_false]
        exact ih ((List.mem_cons.1 hM).resolve_left (fun h => e h.symm)) (fun w hw => hsub w (by simp [hw]))
          (fun w hw => key w (by simp [hw]))

theorem execIf2_search (b : Build) (L M : List T) (t1 t2 : T) (h1 : t1 ∈ L) (h2 : t2 ∈ L) (hM : t1 ∈ M) (hsub : ∀ u ∈ M, u ∈ L)
    (e : T → T → Res β) :
    execIf2 b L (typeChecker L (getIndex t1 L)) (typeChecker L (getIndex t2 L)) e M = e t1 t2 := by
  have key : ∀ u ∈ M, typeChecker L (getIndex t1 L) u = .ok (decide (u = t1)) := by
    intro u hu
    unfold typeChecker
    congr 1
    by_cases e : u = t1
    · simp [e]
    · simp only [e, decide_false, beq_eq_false_iff_ne, ne_eq]
      exact fun h => e ((C38_index L u).2.1 t1 h1 h)
  induction M with
  | nil => cases hM
  | cons u us ih =>
    cases us with
    | nil =>
      have : t1 = u := by simpa using hM
      subst this
      rw [execIf2, key t1 (by simp)]
      simpa using execIf1_search b L L t2 h2 h2 (fun _ h => h) (e t1)
    | cons v vs =>
      rw [execIf2, key u (by simp)]
      by_cases e : u = t1
      · simpa [e] using execIf1_search b L L t2 h2 h2 (fun _ h => h) _
      · simp only [e, bind_ok', decide_false, Bool.false_eq_true, if_false]
        exact ih ((List.mem_cons.1 hM).resolve_left (fun h => e h.symm)) (fun w hw => hsub w (by simp [hw]))
          (fun w hw => key w (by simp [hw]))

/-- C38 for the search over pairs (exec_if_2dim): the executor is invoked with exactly the two types. -/
theorem C38_exec_if_2dim (b : Build) (L : List T) (t1 t2 : T) (h1 : t1 ∈ L) (h2 : t2 ∈ L) (e : T → T → Res β) :
    execIf2 b L (typeChecker L (getIndex t1 L)) (typeChecker L (getIndex t2 L)) e L = e t1 t2 :=
  execIf2_search b L L t1 t2 h1 h2 h1 (fun _ h => h) e

/-- C38 for the one-dimensional table (norms of blocks). -/
theorem C38_exec_dyn (L : List T) (f : T → α → Res β) (o : Obj T α) (h : o.ty ∈ L) : execDyn L f o = f o.ty o.val := by
  unfold execDyn
  rw [List.getElem?_map, getIndex_getElem o.ty L h]
  simp [asType]

theorem execIf_none (b : Build) (p : T → Res Bool) (e : T → Res β) (M : List T) (hne : M ≠ []) (hp : ∀ u ∈ M, p u = .ok false)
    (he : ∀ u ∈ M, e u = .error .ub) :
    execIf b p e M = match b with | .debug => .error .assertFail | .exception => .error (.throw "type not found") | .release => .error .ub := by
  induction M with
  | nil => exact absurd rfl hne
  | cons u us ih =>
    cases us with
    | nil =>
      rw [execIf, hp u (by simp), he u (by simp)]
      cases b <;> rfl
    | cons v vs =>
      rw [execIf, hp u (by simp)]
      exact ih (by simp) (fun w hw => hp w (by simp [hw])) (fun w hw => he w (by simp [hw]))

theorem square_length (L : List T) (order : List (Var T)) : (initAll L order).square.length = L.length := by
  unfold initAll
  suffices ∀ z : Statics T, z.square.length = L.length → (order.foldl (initVar L) z).square.length = L.length from
    this _ (by simp [Statics.zero])
  intro z hz
  induction order generalizing z with
  | nil => exact hz
  | cons v vs ih =>
    rw [List.foldl_cons]
    refine ih _ ?_
    cases v with
    | row t => exact hz
    | square => simp [initVar]

/-- C38, negative: a matrix whose type is not listed (for example `Matrix<Dense,int>` or a row-major one; both
derive from `MatrixBase` and can be held by a `DynamicMatrix`) makes every table dispatch read outside its array,
and the search dispatch undefined in a release build, an abort in a debug build. -/
theorem C38_unlisted_type (L : List T) (f : T → α → Res β) (g : T → T → α → α → Res β)
    (order : List (Var T)) (o o' : Obj T α) (h : o.ty ∉ L) (hne : L ≠ []) :
    execDyn L f o = .error .ub ∧ execDyn2 L (initAll L order) g o o' = .error .ub ∧
    execIfIndex .release L f o = .error .ub ∧ execIfIndex .debug L f o = .error .assertFail := by
  have hidx := getIndex_missing o.ty L h
  have key : ∀ u ∈ L, typeChecker L (getIndex o.ty L) u = .ok false := by
    intro u hu
    unfold typeChecker
    congr 1
    rw [beq_eq_false_iff_ne]
    have := (C38_index L u).1 hu |>.1
    rw [getSize_eq] at this
    omega
  have hall : ∀ u ∈ L, asType f o u = .error .ub := by
    intro u hu
    unfold asType
    rw [if_neg]
    intro e; rw [e] at hu; exact h hu
  refine ⟨?_, ?_, ?_, ?_⟩
  · unfold execDyn
    rw [hidx, List.getElem?_eq_none (by simp)]
  · unfold execDyn2
    rw [hidx, List.getElem?_eq_none (by rw [square_length])]
  · exact execIf_none .release _ _ L hne key hall
  · exact execIf_none .debug _ _ L hne key hall

theorem row_after (L : List T) (pre : List (Var T)) (z : Statics T) (t : T) :
    (pre.foldl (initVar L) z).row t = if .row t ∈ pre then L.map (fun v => some (t, v)) else z.row t := by
  induction pre generalizing z with
  | nil => simp
  | cons v vs ih =>
    rw [List.foldl_cons, ih]
    cases v with
    | square => simp [initVar]
    | row u =>
      by_cases h : Var.row t ∈ vs
      · simp [h]
      · by_cases e : t = u
        · simp [h, e, initVar]
        · simp [h, e, initVar]

theorem square_after (L : List T) (post : List (Var T)) (z : Statics T) (h : .square ∉ post) :
    (post.foldl (initVar L) z).square = z.square := by
  induction post generalizing z with
  | nil => rfl
  | cons v vs ih =>
    rw [List.foldl_cons, ih _ (fun e => h (by simp [e]))]
    cases v with
    | row t => rfl
    | square => exact absurd (by simp) h

/-- C38 for the two-dimensional tables (dynamic `+`, `-`, `*`, `+=`, `-=`), for every type list, every pair of
listed types and every order of initialisation of the tables: the implementation for exactly that pair is invoked
if the row table of the first type was initialised before the square table, which copies it; otherwise the call is
undefined.  (So the claim is only partly true of the code: the language leaves the order open.) -/
theorem C38_exec_dyn_2dim_partial (L : List T) (pre post : List (Var T)) (ho : IsInitOrder L (pre ++ .square :: post))
    (f : T → T → α → α → Res β) (a b : Obj T α) (ha : a.ty ∈ L) (hb : b.ty ∈ L) :
    execDyn2 L (initAll L (pre ++ .square :: post)) f a b =
      if .row a.ty ∈ pre then f a.ty b.ty a.val b.val else .error .ub := by
  have hsq : (initAll L (pre ++ .square :: post)).square = L.map (pre.foldl (initVar L) (.zero L)).row := by
    unfold initAll
    rw [List.foldl_append, List.foldl_cons, square_after]
    · rfl
    · intro h
      have := (List.nodup_append.1 ho.1).2.1
      exact (List.nodup_cons.1 this).1 h
  unfold execDyn2
  rw [hsq, List.getElem?_map, getIndex_getElem a.ty L ha]
  simp only [Option.map_some]
  rw [row_after]
  by_cases h : Var.row a.ty ∈ pre
  · simp only [h, if_true]
    rw [List.getElem?_map, getIndex_getElem b.ty L hb]
    simp
  · simp only [h, if_false]
    have hlt : getIndex b.ty L < L.length := (List.getElem?_eq_some_iff.1 (getIndex_getElem b.ty L hb)).1
    simp [Statics.zero, List.getElem?_replicate, hlt]

/-- C38, negative: an order the language allows in which every dispatched binary operation is undefined. -/
theorem C38_init_order_is_ub (L : List T) :
    IsInitOrder L (.square :: L.dedup.map .row) ∧
    ∀ (f : T → T → α → α → Res β) (a b : Obj T α), a.ty ∈ L → b.ty ∈ L →
      execDyn2 L (initAll L (.square :: L.dedup.map .row)) f a b = .error .ub := by
  have ho : IsInitOrder L (.square :: L.dedup.map .row) := by
    refine ⟨?_, by simp, fun t ht => by simp [ht]⟩
    rw [List.nodup_cons]
    refine ⟨by simp, List.Nodup.map (fun a b h => by cases h; rfl) (List.nodup_dedup L)⟩
  refine ⟨ho, fun f a b ha hb => ?_⟩
  exact (C38_exec_dyn_2dim_partial L [] _ ho f a b ha hb).trans (by simp)

/-- C38, positive counterpart: the order "rows first" is allowed too, and with it every pair reaches its
implementation. -/
theorem C38_rows_first (L : List T) :
    IsInitOrder L (L.dedup.map .row ++ [.square]) ∧
    ∀ (f : T → T → α → α → Res β) (a b : Obj T α), a.ty ∈ L → b.ty ∈ L →
      execDyn2 L (initAll L (L.dedup.map .row ++ [.square])) f a b = f a.ty b.ty a.val b.val := by
  have ho : IsInitOrder L (L.dedup.map .row ++ [.square]) := by
    refine ⟨?_, by simp, fun t ht => by simp [ht]⟩
    rw [List.nodup_append]
    refine ⟨List.Nodup.map (fun a b h => by cases h; rfl) (List.nodup_dedup L), by simp, ?_⟩
    intro x hx y hy
    obtain ⟨t, -, rfl⟩ := List.mem_map.1 hx
    rw [List.mem_singleton.1 hy]
    exact fun h => by cases h
  refine ⟨ho, fun f a b ha hb => ?_⟩
  have := C38_exec_dyn_2dim_partial L (L.dedup.map .row) [] ho f a b ha hb
  rw [this, if_pos (by simp [ha])]

/-- C38 along whole computations: with the tables initialised rows first, every expression of dynamic sums and
products over listed matrices, however deep, is evaluated without leaving the type list: each dispatch finds its
operands' types, and the result is again a listed type. -/
theorem C38_expressions (sAdd sMul : Statics MTy)
    (hA : ∃ pre post, sAdd = initAll listed (pre ++ .square :: post) ∧ IsInitOrder listed (pre ++ .square :: post) ∧ ∀ t ∈ listed, .row t ∈ pre)
    (hM : ∃ pre post, sMul = initAll listed (pre ++ .square :: post) ∧ IsInitOrder listed (pre ++ .square :: post) ∧ ∀ t ∈ listed, .row t ∈ pre)
    (e : Expr) (hleaf : ∀ t, e.HasLeaf t → t ∈ listed) : ∃ t ∈ listed, e.eval sAdd sMul = .ok ⟨t, ()⟩ := by
  have cadd : ∀ u ∈ listed, ∀ v ∈ listed, u.add v ∈ listed := by decide
  have cmul : ∀ u ∈ listed, ∀ v ∈ listed, u.mul v ∈ listed := by decide
  obtain ⟨pA, qA, rfl, hoA, hrA⟩ := hA
  obtain ⟨pM, qM, rfl, hoM, hrM⟩ := hM
  induction e with
  | leaf t => exact ⟨t, hleaf t rfl, rfl⟩
  | add a b iha ihb =>
    obtain ⟨u, hu, eu⟩ := iha (fun t h => hleaf t (.inl h))
    obtain ⟨v, hv, ev⟩ := ihb (fun t h => hleaf t (.inr h))
    refine ⟨u.add v, cadd u hu v hv, ?_⟩
    simp only [Expr.eval, eu, ev, bind_ok']
    rw [C38_exec_dyn_2dim_partial listed pA qA hoA _ ⟨u, ()⟩ ⟨v, ()⟩ hu hv, if_pos (hrA u hu)]
  | mul a b iha ihb =>
    obtain ⟨u, hu, eu⟩ := iha (fun t h => hleaf t (.inl h))
    obtain ⟨v, hv, ev⟩ := ihb (fun t h => hleaf t (.inr h))
    refine ⟨u.mul v, cmul u hu v hv, ?_⟩
    simp only [Expr.eval, eu, ev, bind_ok']
    rw [C38_exec_dyn_2dim_partial listed pM qM hoM _ ⟨u, ()⟩ ⟨v, ()⟩ hu hv, if_pos (hrM u hu)]

/-- Non-vacuity: a real expression over the library's type list. -/
example : ∃ t ∈ listed, (Expr.add (.mul (.leaf (.two (.sparse .double) (.dense .single))) (.leaf (.one (.sparse .single))))
    (.leaf (.one .zero))).eval (initAll listed (listed.dedup.map .row ++ [.square])) (initAll listed (listed.dedup.map .row ++ [.square]))
    = .ok ⟨t, ()⟩ := by
  have h := (C38_rows_first (α := Unit) (β := Unit) listed).1
  refine C38_expressions _ _ ⟨_, [], rfl, h, fun t ht => by simp [ht]⟩ ⟨_, [], rfl, h, fun t ht => by simp [ht]⟩ _ ?_
  intro t ht
  rcases ht with (rfl | rfl) | rfl <;> decide

/-- The single matrices a matrix type consists of. -/
def MTy.parts : MTy → List STy
  | .one a => [a]
  | .two a b => [a, b]

/-- Some part with stored elements is in double precision / is dense / is not the zero format. -/
def MTy.HasDouble (t : MTy) : Prop := .sparse .double ∈ t.parts ∨ .dense .double ∈ t.parts
def MTy.HasDense (t : MTy) : Prop := .dense .single ∈ t.parts ∨ .dense .double ∈ t.parts
def MTy.AllZero (t : MTy) : Prop := ∀ s ∈ t.parts, s = .zero

instance (t : MTy) : Decidable t.HasDouble := inferInstanceAs (Decidable (_ ∨ _))
instance (t : MTy) : Decidable t.HasDense := inferInstanceAs (Decidable (_ ∨ _))
instance (t : MTy) : Decidable t.AllZero := inferInstanceAs (Decidable (∀ s ∈ t.parts, s = .zero))

/-- All formats and all matrix types, and that the lists are complete. -/
def allS : List STy := [.zero, .sparse .single, .sparse .double, .dense .single, .dense .double]
def allM : List MTy := allS.map .one ++ allS.flatMap fun a => allS.map fun b => .two a b

theorem mem_allS (s : STy) : s ∈ allS := by
  rcases s with _ | p | p
  · decide
  · cases p <;> decide
  · cases p <;> decide

theorem mem_allM (t : MTy) : t ∈ allM := by
  cases t with
  | one a => exact List.mem_append_left _ (List.mem_map_of_mem (mem_allS a))
  | two a b =>
    exact List.mem_append_right _ (List.mem_flatMap.2 ⟨a, mem_allS a, List.mem_map_of_mem (mem_allS b)⟩)

/-- C38, type of a sum or difference of any two (also unlisted) matrix types: one single matrix, in double
precision exactly if a stored element of an operand is, dense exactly if a part of an operand is, and the zero
format exactly if everything is: no precision is lost and no operand is forgotten by the choice of the instance. -/
theorem C38_sum_type (u v : MTy) :
    (∃ s, u.add v = .one s) ∧
    ((u.add v).HasDouble ↔ u.HasDouble ∨ v.HasDouble) ∧
    ((u.add v).HasDense ↔ u.HasDense ∨ v.HasDense) ∧
    ((u.add v).AllZero ↔ u.AllZero ∧ v.AllZero) := by
  refine ⟨?_, ?_⟩
  · cases u <;> cases v <;> exact ⟨_, rfl⟩
  · have key : ∀ u ∈ allM, ∀ v ∈ allM, ((u.add v).HasDouble ↔ u.HasDouble ∨ v.HasDouble) ∧ ((u.add v).HasDense ↔ u.HasDense ∨ v.HasDense) ∧
        ((u.add v).AllZero ↔ u.AllZero ∧ v.AllZero) := by
      decide +kernel
    exact key u (mem_allM u) v (mem_allM v)

/-- C38, type of a product: one single matrix, whose elements are in double precision exactly if some pair of
factors that both have stored elements contains a double one; dense exactly if some such pair contains a dense one;
zero format exactly if no such pair exists. -/
theorem C38_product_type (u v : MTy) :
    (∃ s, u.mul v = .one s) ∧
    ((u.mul v).HasDouble ↔ ∃ s ∈ u.parts, ∃ t ∈ v.parts, s ≠ .zero ∧ t ≠ .zero ∧ ((MTy.two s t).HasDouble)) ∧
    ((u.mul v).HasDense ↔ ∃ s ∈ u.parts, ∃ t ∈ v.parts, s ≠ .zero ∧ t ≠ .zero ∧ ((MTy.two s t).HasDense)) ∧
    ((u.mul v).AllZero ↔ ∀ s ∈ u.parts, ∀ t ∈ v.parts, s = .zero ∨ t = .zero) := by
  refine ⟨?_, ?_⟩
  · cases u <;> cases v <;> exact ⟨_, rfl⟩
  · have key : ∀ u ∈ allM, ∀ v ∈ allM, ((u.mul v).HasDouble ↔ ∃ s ∈ u.parts, ∃ t ∈ v.parts, s ≠ .zero ∧ t ≠ .zero ∧ ((MTy.two s t).HasDouble)) ∧
        ((u.mul v).HasDense ↔ ∃ s ∈ u.parts, ∃ t ∈ v.parts, s ≠ .zero ∧ t ≠ .zero ∧ ((MTy.two s t).HasDense)) ∧
        ((u.mul v).AllZero ↔ ∀ s ∈ u.parts, ∀ t ∈ v.parts, s = .zero ∨ t = .zero) := by
      decide +kernel
    exact key u (mem_allM u) v (mem_allM v)

/-- Non-vacuity: both kinds of result occur. -/
example : (MTy.add (.one (.sparse .single)) (.one (.dense .double))) = .one (.dense .double) ∧
    MTy.mul (.one .zero) (.one (.dense .double)) = .one .zero := by decide

/-- The type list of the library names each type once, and its indices are 0..6. -/
theorem C38_listed : listed.map (fun t => getIndex t listed) = [0, 1, 2, 3, 4, 5, 6] ∧ listed.Nodup := by decide

end BB.Dispatch
