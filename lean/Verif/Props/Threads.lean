import Verif.Lemmas.Threads
import Verif.SpecThreads
import Verif.Lemmas.DenseMul
import Mathlib.Algebra.Order.Ring.Int

/-!
# C103: use from several threads
-/

namespace BB.Par

variable {R : Type}

theorem map_range_succ (g : Nat → R) (n : Nat) : (List.range (n + 1)).map g = g 0 :: (List.range n).map fun q => g (q + 1) := by
  rw [List.range_succ_eq_map, List.map_cons, List.map_map]; rfl

theorem readAll_run (x : Nat) (m : ∀ l, Obj R l) (p n : Nat) :
    (readAll x p n).run m = (m, (List.range n).map fun q => (m (.elem x (p + q)) : R)) := by
  induction n generalizing p with
  | zero => rfl
  | succ n ih =>
    rw [map_range_succ]
    simp only [readAll, Act.run]
    rw [Act.run_bind, ih]
    simp only [Act.run]
    congr 2
    apply List.map_congr_left
    intro q _
    rw [show p + 1 + q = p + (q + 1) by omega]

theorem readAll_within {m0 : ∀ l, Obj R l} {mine ro : Loc → Prop} {x : Nat} (h : ∀ p, mine (.elem x p) ∨ ro (.elem x p)) (p n : Nat) :
    (readAll x p n).Within m0 mine ro := by
  induction n generalizing p with
  | zero => trivial
  | succ n ih =>
    have := fun (v : R) => Act.Within.bind (f := fun l => Act.ret (v :: l)) (ih (p + 1)) (fun _ => trivial)
    rcases h p with h | h
    · exact .inl ⟨h, fun v => this v⟩
    · exact .inr ⟨h, this _⟩

/-! ### Reading threads get the right answers -/

/-- What reading threads do to the memory: nothing to the elements; a norm that is right stays right, a norm that is
marked stays marked. -/
def Reads (W : World R) (m m' : ∀ l, Obj R l) : Prop :=
  (∀ x p, m' (.elem x p) = m (.elem x p)) ∧ (CacheValid W m → CacheValid W m') ∧
  (∀ x, m (.upToDate x) = true → m' (.upToDate x) = true) ∧
  ∀ x, m (.norm x) = W.nrm (elems W m x) → m' (.norm x) = W.nrm (elems W m' x)

theorem Reads.refl (W : World R) (m : ∀ l, Obj R l) : Reads W m m := ⟨fun _ _ => rfl, id, fun _ h => h, fun _ h => h⟩

theorem Reads.trans {W : World R} {a b c : ∀ l, Obj R l} (h1 : Reads W a b) (h2 : Reads W b c) : Reads W a c :=
  ⟨fun x p => (h2.1 x p).trans (h1.1 x p), fun h => h2.2.1 (h1.2.1 h), fun x h => h2.2.2.1 x (h1.2.2.1 x h),
    fun x h => h2.2.2.2 x (h1.2.2.2 x h)⟩

theorem Reads.same {W : World R} {a b : ∀ l, Obj R l} (h : Reads W a b) (x : Nat) : elems W b x = elems W a x := by
  unfold Par.elems
  exact List.map_congr_left fun p _ => h.1 x p

theorem readAll_gives (W : World R) (x : Nat) (m : ∀ l, Obj R l) (p n : Nat) :
    (readAll x p n).Gives (Reads W) m (fun l => l = (List.range n).map fun q => (m (.elem x (p + q)) : R)) := by
  induction n generalizing p m with
  | zero => rfl
  | succ n ih =>
    intro m' hr
    refine Act.Gives.bind (ih m' (p + 1)) Reads.trans (Reads.refl W) ?_
    rintro l m'' _ rfl
    show _ = _
    rw [map_range_succ]
    congr 1
    · exact hr.1 _ _
    · apply List.map_congr_left
      intro q _
      rw [show p + 1 + q = p + (q + 1) by omega]
      exact hr.1 _ _

theorem elem_update_norm (m : ∀ l, Obj R l) (x : Nat) (v : R) (y p : Nat) : Function.update m (.norm x) v (.elem y p) = m (.elem y p) :=
  Function.update_of_ne (by simp) _ _

theorem elem_update_flag (m : ∀ l, Obj R l) (x : Nat) (v : Bool) (y p : Nat) : Function.update m (.upToDate x) v (.elem y p) = m (.elem y p) :=
  Function.update_of_ne (by simp) _ _

theorem Reads.write_norm (W : World R) (m : ∀ l, Obj R l) (x : Nat) : Reads W m (Function.update m (.norm x) (W.nrm (elems W m x))) := by
  have he : ∀ y, elems W (Function.update m (.norm x) (W.nrm (elems W m x))) y = elems W m y := fun y =>
    List.map_congr_left fun p _ => elem_update_norm m x _ y p
  have hf : ∀ y, Function.update m (.norm x) (W.nrm (elems W m x)) (.upToDate y) = m (.upToDate y) := fun y =>
    Function.update_of_ne (by simp) _ _
  have hn : ∀ y, m (.norm y) = W.nrm (elems W m y) → Function.update m (.norm x) (W.nrm (elems W m x)) (.norm y) = W.nrm (elems W m y) := by
    intro y h
    by_cases e : y = x
    · subst e; rw [Function.update_self]
    · rw [Function.update_of_ne (by simpa using e)]; exact h
  refine ⟨elem_update_norm m x _, fun h y hy => ?_, fun y hy => by rw [hf]; exact hy, fun y hy => ?_⟩
  · rw [hf] at hy
    rw [he]; exact hn y (h y hy)
  · rw [he]; exact hn y hy

theorem Reads.write_flag (W : World R) (m : ∀ l, Obj R l) (x : Nat) (h : m (.norm x) = W.nrm (elems W m x)) :
    Reads W m (Function.update m (.upToDate x) true) := by
  have he : ∀ y, elems W (Function.update m (.upToDate x) true) y = elems W m y := fun y =>
    List.map_congr_left fun p _ => elem_update_flag m x _ y p
  have hn : ∀ y, Function.update m (.upToDate x) true (.norm y) = m (.norm y) := fun y => Function.update_of_ne (by simp) _ _
  refine ⟨elem_update_flag m x _, fun hv y hy => ?_, fun y hy => ?_, fun y hy => ?_⟩
  · rw [he, hn]
    by_cases e : y = x
    · subst e; exact h
    · rw [Function.update_of_ne (by simpa using e)] at hy; exact hv y hy
  · by_cases e : y = x
    · subst e; rw [Function.update_self]
    · rw [Function.update_of_ne (by simpa using e)]; exact hy
  · rw [he, hn]; exact hy

theorem updateNorm_gives {A : Type} (W : World R) (x : Nat) (m : ∀ l, Obj R l) (f : Unit → Act (Obj R) A) (P : A → Prop)
    (hf : ∀ m', Reads W m m' → m' (.upToDate x) = true → (f ()).Gives (Reads W) m' P) :
    ((updateNorm W x).bind f).Gives (Reads W) m P := by
  intro m1 h1
  cases hb : m1 (.upToDate x) with
  | true => exact hf m1 h1 hb
  | false =>
    show (((readAll x 0 (W.rows x * W.cols x)).bind _).bind f).Gives (Reads W) m1 _
    rw [Act.bind_assoc]
    refine Act.Gives.bind (readAll_gives W x m1 0 _) Reads.trans (Reads.refl W) ?_
    rintro l m2 h2 rfl
    have e : (List.range (W.rows x * W.cols x)).map (fun q => (m1 (.elem x (0 + q)) : R)) = elems W m1 x :=
      List.map_congr_left fun q _ => by rw [Nat.zero_add]
    rw [e]
    intro m3 h3
    have hel : elems W m1 x = elems W m3 x := ((h2.trans h3).same x).symm
    rw [hel]
    have r3 := Reads.write_norm W m3 x
    refine ⟨r3, ?_⟩
    intro m4 h4
    have r4 := Reads.write_flag W m4 x (h4.2.2.2 x (by rw [Function.update_self, r3.same]))
    exact ⟨r4, hf _ ((((h1.trans h2).trans h3).trans r3).trans (h4.trans r4)) (Function.update_self ..)⟩

theorem getNorm_gives (W : World R) (x : Nat) (m : ∀ l, Obj R l) (hm : CacheValid W m) :
    (getNorm W x).Gives (Reads W) m (fun v => v = W.nrm (elems W m x)) := by
  intro m1 h1
  have hm1 := h1.2.1 hm
  have last : ∀ m2, Reads W m1 m2 → m2 (.upToDate x) = true →
      (Act.rd (.norm x) fun (v : R) => Act.ret v : Act (Obj R) R).Gives (Reads W) m2 (fun v => v = W.nrm (elems W m x)) := by
    intro m2 h2 hf m3 h3
    show m3 (.norm x) = _
    rw [(h3.2.1 (h2.2.1 hm1)) x (h3.2.2.1 x hf), ((h1.trans h2).trans h3).same x]
  cases hb : m1 (.upToDate x) with
  | true => exact last m1 (Reads.refl W m1) hb
  | false =>
    exact updateNorm_gives W x m1 _ _ fun m2 h2 hf => last m2 h2 hf

theorem thread_gives [Zero R] [Add R] [Mul R] [LT R] [DecidableLT R] (W : World R) (m : ∀ l, Obj R l) (hm : CacheValid W m) (cs : List (Call R))
    (h : ∀ c ∈ cs, c.readOnly) : (thread W cs).Gives (Reads W) m (fun as => as.map some = cs.map fun c => c.answer W m) := by
  induction cs generalizing m with
  | nil => rfl
  | cons c cs ih =>
    have hc : (c.act W).Gives (Reads W) m (fun a => some a = c.answer W m) := by
      cases c with
      | get x p => exact fun m' h' => congrArg (fun v => some (Ans.num v)) (h'.1 x p)
      | norm x =>
        refine Act.Gives.bind (getNorm_gives W x m hm) Reads.trans (Reads.refl W) ?_
        rintro v m' _ rfl
        rfl
      | normLarger x v =>
        refine Act.Gives.bind (getNorm_gives W x m hm) Reads.trans (Reads.refl W) ?_
        rintro v m' _ rfl
        rfl
      | count x k => exact absurd (h _ List.mem_cons_self) id
      | mul c a b d => exact absurd (h _ List.mem_cons_self) id
    refine Act.Gives.bind hc Reads.trans (Reads.refl W) ?_
    intro a m' hr ha
    refine Act.Gives.bind (ih m' (hr.2.1 hm) fun c hc => h c (List.mem_cons_of_mem _ hc)) Reads.trans (Reads.refl W) ?_
    intro as m'' _ has
    show _ = _
    rw [List.map_cons, List.map_cons, ha, has]
    congr 1
    apply List.map_congr_left
    intro c _
    cases c <;> simp only [Call.answer, hr.1, hr.same]

/-- C103: any number of threads read elements and ask for norms of shared matrices.  If memory accesses take effect one at
a time and in program order, every answer of every thread is the right one, in every interleaving, and the elements are
unchanged. -/
theorem C103_readers_partial [Zero R] [Add R] [Mul R] [LT R] [DecidableLT R] (W : World R) (m : ∀ l, Obj R l) (hm : CacheValid W m)
    (ps : List (List (Call R))) (hp : ∀ p ∈ ps, ∀ c ∈ p, c.readOnly) (c : Cfg (Obj R) (List (Ans R))) (h : Steps (start W m ps) c) :
    (∀ x p, c.mem (.elem x p) = m (.elem x p)) ∧
    ∀ (i : Nat) (as : List (Ans R)), c.threads[i]? = some (.ret as) →
      ∃ p, ps[i]? = some p ∧ as.map some = p.map fun k => k.answer W m := by
  have key := Gives.steps (c0 := start W m ps) (c := c) (Rel := Reads W) Reads.trans (Reads.refl W)
    (fun i as => ∃ p, ps[i]? = some p ∧ as.map some = p.map fun k => k.answer W m) ?_ h
  · exact ⟨key.1.1, fun i as hi => key.2 i _ hi⟩
  · intro i a hi
    simp only [start, List.getElem?_map, Option.map_eq_some_iff] at hi
    obtain ⟨p, hp', rfl⟩ := hi
    have := thread_gives W m hm p (hp p (List.mem_of_getElem? hp'))
    have gm : ∀ {A : Type} (a : Act (Obj R) A) (m : ∀ l, Obj R l) (P Q : A → Prop), (∀ x, P x → Q x) → a.Gives (Reads W) m P → a.Gives (Reads W) m Q := by
      intro A a
      induction a with
      | ret a => exact fun m P Q h hp => h a hp
      | rd l k ih => exact fun m P Q h hp m' hr => ih _ m' P Q h (hp m' hr)
      | wr l v k ih => exact fun m P Q h hp m' hr => ⟨(hp m' hr).1, ih _ P Q h (hp m' hr).2⟩
    exact gm _ _ _ _ (fun as has => ⟨p, hp', has⟩) this

/-- C103: no thread can block another: from every state all threads can be run to their ends. -/
theorem C103_finishes (c : Cfg (Obj R) (List (Ans R))) : ∃ c' as, Steps c c' ∧ Done c' as := by
  have key : ∀ n, n ≤ c.threads.length → ∃ c', Steps c c' ∧ c'.threads.length = c.threads.length ∧
      ∀ i, i < n → ∃ a, c'.threads[i]? = some (.ret a) := by
    intro n
    induction n with
    | zero => exact fun _ => ⟨c, .refl, rfl, fun _ h => by omega⟩
    | succ n ih =>
      intro hn
      obtain ⟨c', h1, h2, h3⟩ := ih (by omega)
      have hlt : n < c'.threads.length := by omega
      refine ⟨_, h1.trans (Steps.finish (List.getElem?_eq_getElem hlt)), by simp [h2], ?_⟩
      intro i hi
      simp only [List.getElem?_set]
      by_cases e : n = i
      · subst e; rw [if_pos rfl, if_pos hlt]; exact ⟨_, rfl⟩
      · rw [if_neg e]; exact h3 i (by omega)
  obtain ⟨c', h1, h2, h3⟩ := key _ (le_refl _)
  have h4 : ∀ i, ∃ a, i < c.threads.length → c'.threads[i]? = some (.ret a) := by
    intro i
    by_cases h : i < c.threads.length
    · obtain ⟨a, ha⟩ := h3 i h; exact ⟨a, fun _ => ha⟩
    · exact ⟨[], fun h' => absurd h' h⟩
  choose f hf using h4
  refine ⟨c', (List.range c.threads.length).map f, h1, ?_⟩
  apply List.ext_getElem?
  intro i
  by_cases h : i < c.threads.length
  · rw [hf i h]; simp [h]
  · rw [List.getElem?_eq_none (by omega), List.getElem?_eq_none (by simpa using h)]

/-! ### Races -/

theorem getNorm_goes {A : Type} (W : World R) (x : Nat) (m : ∀ l, Obj R l) (hm : m (.upToDate x) = false) (f : R → Act (Obj R) A) :
    ∃ k, Goes ((getNorm W x).bind f) m (.wr (.norm x) (W.nrm (elems W m x)) k) m := by
  have e : (List.range (W.rows x * W.cols x)).map (fun q => (m (.elem x (0 + q)) : R)) = elems W m x :=
    List.map_congr_left fun q _ => by rw [Nat.zero_add]
  apply Exists.intro
  refine .rd ?_
  rw [hm]
  refine .rd ?_
  rw [hm]
  show Goes ((((readAll x 0 (W.rows x * W.cols x)).bind _).bind _).bind f) m _ m
  rw [Act.bind_assoc, Act.bind_assoc]
  refine Goes.first _ _ _ ?_
  rw [readAll_run, e]
  exact .refl _ _

theorem two_at {A : Type} (a b : Act (Obj R) A) {a' b' : Act (Obj R) A} {m m' m'' : ∀ l, Obj R l} (ths : List (Act (Obj R) A)) {i j : Nat} (hne : i ≠ j)
    (hi : ths[i]? = some a) (hj : ths[j]? = some b) (ha : Goes a m a' m') (hb : Goes b m' b' m'') :
    ∃ c, Steps ⟨m, ths⟩ c ∧ c.mem = m'' ∧ c.threads[i]? = some a' ∧ c.threads[j]? = some b' := by
  have h1 := (List.getElem?_eq_some_iff.1 hi).1
  have h2 := (List.getElem?_eq_some_iff.1 hj).1
  have hj' : (ths.set i a')[j]? = some b := by rw [List.getElem?_set, if_neg hne]; exact hj
  refine ⟨_, (ha.steps hi).trans (hb.steps hj'), rfl, ?_, ?_⟩
  · simp only
    rw [List.getElem?_set, if_neg (Ne.symm hne), List.getElem?_set, if_pos rfl, if_pos h1]
  · simp only
    rw [List.getElem?_set, if_pos rfl, if_pos (by simpa using h2)]

/-- C103, negative: two threads that ask for the norm of the same matrix, which has not been computed yet, race – although
the member function is `const`. -/
theorem C103_norm_races [Zero R] [Add R] [Mul R] [LT R] [DecidableLT R] (W : World R) (m : ∀ l, Obj R l) (x : Nat) (hx : m (.upToDate x) = false)
    (ps : List (List (Call R))) (i j : Nat) (hne : i ≠ j) (p q : List (Call R)) (hi : ps[i]? = some (.norm x :: p)) (hj : ps[j]? = some (.norm x :: q)) :
    ∃ c, Steps (start W m ps) c ∧ Race c := by
  obtain ⟨k1, g1⟩ := getNorm_goes W x m hx (fun v => (Act.ret (Ans.num v)).bind fun a => (thread W p).bind fun as => .ret (a :: as))
  obtain ⟨k2, g2⟩ := getNorm_goes W x m hx (fun v => (Act.ret (Ans.num v)).bind fun a => (thread W q).bind fun as => .ret (a :: as))
  obtain ⟨c, h1, -, h2, h3⟩ := two_at _ _ (ps.map (thread W)) hne (by rw [List.getElem?_map, hi]; rfl) (by rw [List.getElem?_map, hj]; rfl)
    (by rw [show thread W (.norm x :: p) = _ from Act.bind_assoc _ _ _]; exact g1)
    (by rw [show thread W (.norm x :: q) = _ from Act.bind_assoc _ _ _]; exact g2)
  exact ⟨c, h1, i, j, _, _, .norm x, hne, h2, h3, rfl, rfl⟩

/-- C103, negative: two threads that ask for the occupation of the same matrix race, even if the answer is in the cache
already. -/
theorem C103_occupation_races [Zero R] [Add R] [Mul R] [LT R] [DecidableLT R] (W : World R) (m : ∀ l, Obj R l) (x k k' : Nat)
    (ps : List (List (Call R))) (i j : Nat) (hne : i ≠ j) (p q : List (Call R)) (hi : ps[i]? = some (.count x k :: p)) (hj : ps[j]? = some (.count x k' :: q)) :
    ∃ c, Steps (start W m ps) c ∧ Race c := by
  have key : ∀ {A : Type} (k : Nat) (f : Nat → Act (Obj R) A), ∃ v r, Goes ((getCount W x k).bind f) m (.wr (.occ x) v r) m := by
    intro A k f
    cases hl : (m (.occ x)).lookup k with
    | some n =>
      apply Exists.intro
      apply Exists.intro
      refine .rd ?_
      beta_reduce
      rw [hl]
      exact .refl _ _
    | none =>
      apply Exists.intro
      apply Exists.intro
      refine .rd ?_
      beta_reduce
      rw [hl]
      show Goes (((readAll x 0 (W.rows x * W.cols x)).bind _).bind f) m _ m
      rw [Act.bind_assoc]
      refine Goes.first _ _ _ ?_
      rw [readAll_run]
      exact .rd (.refl _ _)
  obtain ⟨v1, k1, g1⟩ := key k (fun n => (Act.ret (Ans.nat n)).bind fun a => (thread W p).bind fun as => .ret (a :: as))
  obtain ⟨v2, k2, g2⟩ := key k' (fun n => (Act.ret (Ans.nat n)).bind fun a => (thread W q).bind fun as => .ret (a :: as))
  obtain ⟨c, h1, -, h2, h3⟩ := two_at _ _ (ps.map (thread W)) hne (by rw [List.getElem?_map, hi]; rfl) (by rw [List.getElem?_map, hj]; rfl)
    (by rw [show thread W (.count x k :: p) = _ from Act.bind_assoc _ _ _]; exact g1)
    (by rw [show thread W (.count x k' :: q) = _ from Act.bind_assoc _ _ _]; exact g2)
  exact ⟨c, h1, i, j, _, _, .occ x, hne, h2, h3, rfl, rfl⟩

/-! ### The tracker -/

/-- The product without the tracker: what is done before its destructor. -/
def mulBody [Zero R] [Add R] [Mul R] (W : World R) (c a b : Nat) : Act (Obj R) Unit :=
  (Act.forN (W.rows a * W.cols b) fun p => .wr (.elem c p) (0 : R) (.ret ())).bind fun _ =>
  Act.forN (W.cols b) fun j => Act.forN (W.rows b) fun k => Act.forN (W.rows a) fun i =>
    mulCell c a b (j * W.rows a + i) (k * W.rows a + i) (j * W.rows b + k)

theorem mulDense_eq [Zero R] [Add R] [Mul R] (W : World R) (c a b : Nat) (d : Int) :
    mulDense W c a b d = (mulBody W c a b).bind fun _ => if W.tracked then trackerAdd idDense d else .ret () := by
  unfold mulDense mulBody
  rw [Act.bind_assoc]

theorem mulBody_within [Zero R] [Add R] [Mul R] (W : World R) (c a b : Nat) {m0 : ∀ l, Obj R l} {mine ro : Loc → Prop} (hc : ∀ p, mine (.elem c p))
    (ha : ∀ p, mine (.elem a p) ∨ ro (.elem a p)) (hb : ∀ p, mine (.elem b p) ∨ ro (.elem b p)) : (mulBody W c a b).Within m0 mine ro := by
  have rd : ∀ {A : Type} {x p : Nat} {k : R → Act (Obj R) A}, mine (.elem x p) ∨ ro (.elem x p) → (∀ v, (k v).Within m0 mine ro) →
      (Act.rd (.elem x p) k).Within m0 mine ro := by
    intro A x p k h hk
    rcases h with h | h
    · exact .inl ⟨h, hk⟩
    · exact .inr ⟨h, hk _⟩
  refine Act.Within.bind (Act.Within.forN fun p _ => ⟨hc p, trivial⟩) fun _ => Act.Within.forN fun j _ => Act.Within.forN fun k _ =>
    Act.Within.forN fun i _ => ?_
  exact rd (ha _) fun va => rd (hb _) fun vb => rd (.inl (hc _)) fun vc => ⟨hc _, trivial⟩

theorem mulBody_frame [Zero R] [Add R] [Mul R] (W : World R) (c a b : Nat) (m : ∀ l, Obj R l) (l : Loc) (hl : ∀ p, l ≠ .elem c p) :
    ((mulBody W c a b).run m).1 l = m l := by
  refine Act.Within.run_frame (m0 := m) (mine := fun l => ∃ p, l = .elem c p) (ro := fun l => ¬ ∃ p, l = .elem c p)
    (mulBody_within W c a b (fun p => ⟨p, rfl⟩) (fun p => Classical.em _) (fun p => Classical.em _)) (fun _ h h' => h' h) (fun _ _ => rfl) ?_
  rintro ⟨p, e⟩
  exact hl p e

theorem tracked_goes [Zero R] [Add R] [Mul R] {A : Type} (W : World R) (hW : W.tracked = true) (c a b : Nat) (d : Int) (f : Unit → Act (Obj R) A) (m : ∀ l, Obj R l) :
    ∃ m1, (∀ l, (∀ p, l ≠ .elem c p) → m1 l = m l) ∧
      Goes ((mulDense W c a b d).bind f) m ((trackerAdd idDense d).bind f) m1 := by
  refine ⟨((mulBody W c a b).run m).1, fun l hl => mulBody_frame W c a b m l hl, ?_⟩
  rw [mulDense_eq, Act.bind_assoc]
  refine Goes.first _ _ _ ?_
  rw [hW]
  exact .refl _ _

/-- C103, negative: with the tracker compiled in, two threads that compute dense products race, whatever matrices they
use. -/
theorem C103_tracker_races [Zero R] [Add R] [Mul R] [LT R] [DecidableLT R] (W : World R) (hW : W.tracked = true) (m : ∀ l, Obj R l)
    (ps : List (List (Call R))) (i j : Nat) (hne : i ≠ j) (c a b c' a' b' : Nat) (d d' : Int) (p q : List (Call R))
    (hi : ps[i]? = some (.mul c a b d :: p)) (hj : ps[j]? = some (.mul c' a' b' d' :: q)) :
    ∃ s, Steps (start W m ps) s ∧ Race s := by
  obtain ⟨m1, -, g1⟩ := tracked_goes W hW c a b d (fun _ => (Act.ret Ans.unit).bind fun a => (thread W p).bind fun as => .ret (a :: as)) m
  obtain ⟨m2, -, g2⟩ := tracked_goes W hW c' a' b' d' (fun _ => (Act.ret Ans.unit).bind fun a => (thread W q).bind fun as => .ret (a :: as)) m1
  obtain ⟨s, h1, -, h2, h3⟩ := two_at _ _ (ps.map (thread W)) hne (by rw [List.getElem?_map, hi]; rfl) (by rw [List.getElem?_map, hj]; rfl)
    (by rw [show thread W (.mul c a b d :: p) = _ from Act.bind_assoc _ _ _]; exact g1)
    (by rw [show thread W (.mul c' a' b' d' :: q) = _ from Act.bind_assoc _ _ _]; exact g2)
  -- thread j reads the time and is about to write it, thread i is about to read it
  have h4 := Step.rd j _ _ h3
  have h5 := fun x => (List.getElem?_set (l := s.threads) (i := j) (j := i) (a := x)).trans ((if_neg (Ne.symm hne)).trans h2)
  have h6 := fun x => (List.getElem?_set (l := s.threads) (i := j) (j := j) (a := x)).trans ((if_pos rfl).trans (if_pos (List.getElem?_eq_some_iff.1 h3).1))
  exact ⟨_, .tail h1 h4, i, j, _, _, .time idDense, hne, h5 _, h6 _, rfl, rfl⟩

/-- C103, negative: with the tracker, of two products computed by two threads only one may be counted, even if memory
accesses take effect one at a time. -/
theorem C103_tracker_loses_counts [Zero R] [Add R] [Mul R] [LT R] [DecidableLT R] (W : World R) (hW : W.tracked = true) (m : ∀ l, Obj R l)
    (c a b c' a' b' : Nat) (d d' : Int) :
    ∃ s as, Steps (start W m [[.mul c a b d], [.mul c' a' b' d']]) s ∧ Done s as ∧
      s.mem (.count idDense) = m (.count idDense) + 1 := by
  let fin : Unit → Act (Obj R) (List (Ans R)) := fun _ => (Act.ret Ans.unit).bind fun a => (Act.ret []).bind fun as => .ret (a :: as)
  obtain ⟨m1, e1, g1⟩ := tracked_goes W hW c a b d fin m
  let m1' := Function.update m1 (.time idDense) (m1 (.time idDense) + d : Int)
  have g1' : Goes ((trackerAdd idDense d).bind fin) m1
      (.wr (.count idDense) (m (.count idDense) + 1 : Nat) (fin ())) m1' := by
    refine .rd (.wr (.rd ?_))
    rw [Function.update_of_ne (by simp), e1 _ (by simp)]
    exact .refl _ _
  obtain ⟨m2, e2, g2⟩ := tracked_goes W hW c' a' b' d' fin m1'
  let m2' := Function.update m2 (.time idDense) (m2 (.time idDense) + d' : Int)
  have g2' : Goes ((trackerAdd idDense d').bind fin) m2
      (.wr (.count idDense) (m (.count idDense) + 1 : Nat) (fin ())) m2' := by
    refine .rd (.wr (.rd ?_))
    rw [Function.update_of_ne (by simp), e2 _ (by simp)]
    rw [show m1' (.count idDense) = m (.count idDense) from (Function.update_of_ne (by simp) _ _).trans (e1 _ (by simp))]
    exact .refl _ _
  have t : ∀ c a b d, thread W [.mul c a b d] = (mulDense W c a b d).bind fin := fun c a b d => Act.bind_assoc _ _ _
  have s1 := g1.steps (ths := [(mulDense W c a b d).bind fin, (mulDense W c' a' b' d').bind fin]) (i := 0) rfl
  have s2 := g1'.steps (ths := [(trackerAdd idDense d).bind fin, (mulDense W c' a' b' d').bind fin]) (i := 0) rfl
  have s3 := g2.steps (ths := [.wr (Loc.count idDense) (m (.count idDense) + 1 : Nat) (fin ()), (mulDense W c' a' b' d').bind fin]) (i := 1) rfl
  have s4 := g2'.steps (ths := [.wr (Loc.count idDense) (m (.count idDense) + 1 : Nat) (fin ()), (trackerAdd idDense d').bind fin]) (i := 1) rfl
  have all := ((s1.trans s2).trans s3).trans s4
  have all := Steps.tail (.tail all (.wr 0 _ _ _ rfl)) (.wr 1 _ _ _ rfl)
  have e0 : start W m [[.mul c a b d], [.mul c' a' b' d']] = ⟨m, [(mulDense W c a b d).bind fin, (mulDense W c' a' b' d').bind fin]⟩ := by
    simp only [start, List.map_cons, List.map_nil, t]
  rw [e0]
  exact ⟨_, [[.unit], [.unit]], all, rfl, by simp only [Function.update_self]⟩

/-! ### Why the interleavings of the first theorem are not enough -/

/-- `updateNorm()` with its two stores exchanged, as a compiler or processor may do. -/
def updateNormReordered (W : World R) (x : Nat) : Act (Obj R) Unit :=
  .rd (.upToDate x) fun (b : Bool) =>
    if b then .ret ()
    else (readAll x 0 (W.rows x * W.cols x)).bind fun l =>
      .wr (.upToDate x) true (.wr (.norm x) (W.nrm l) (.ret ()))

/-- `getNorm()` with it. -/
def getNormReordered (W : World R) (x : Nat) : Act (Obj R) R :=
  .rd (.upToDate x) fun (b : Bool) =>
    (if b then .ret () else updateNormReordered W x).bind fun _ => .rd (.norm x) fun (v : R) => .ret v

/-- C103, negative: exchanging the two stores is invisible to a single thread, but then a second thread can be given the
value the norm had before it was computed. -/
theorem C103_reordered_stores (W : World R) (x : Nat) :
    (∀ m, (getNormReordered W x).run m = (getNorm W x).run m) ∧
    ∀ m, m (.upToDate x) = false → ∃ c, Steps ⟨m, [getNormReordered W x, getNormReordered W x]⟩ c ∧ c.threads[1]? = some (.ret (m (.norm x))) := by
  constructor
  · intro m
    have key : (updateNormReordered W x).run m = (updateNorm W x).run m := by
      unfold updateNormReordered updateNorm
      simp only [Act.run]
      cases m (.upToDate x) with
      | true => rfl
      | false =>
        simp only [Bool.false_eq_true, if_false, Act.run_bind, Act.run]
        rw [Function.update_comm (show Loc.upToDate x ≠ Loc.norm x by simp)]
    unfold getNormReordered getNorm
    simp only [Act.run]
    cases m (.upToDate x) with
    | true => rfl
    | false => simp only [Bool.false_eq_true, if_false, Act.run_bind, key]
  · intro m hm
    have g1 : ∃ k, Goes (getNormReordered W x) m k (Function.update m (.upToDate x) true) := by
      refine ⟨.wr (.norm x) (W.nrm ((List.range (W.rows x * W.cols x)).map fun q => (m (.elem x (0 + q)) : R)))
        (.rd (.norm x) fun (v : R) => .ret v), ?_⟩
      refine .rd ?_
      rw [hm]
      refine .rd ?_
      rw [hm]
      have key : ∀ (f : List R → Act (Obj R) Unit) (g : Unit → Act (Obj R) R) (r : Act (Obj R) R) (m' : ∀ l, Obj R l),
          Goes ((f ((readAll x 0 (W.rows x * W.cols x)).run m).2).bind g) ((readAll x 0 (W.rows x * W.cols x)).run m).1 r m' →
          Goes (((readAll x 0 (W.rows x * W.cols x)).bind f).bind g) m r m' := by
        intro f g r m' hh
        rw [Act.bind_assoc]
        exact Goes.first _ _ _ hh
      refine key _ _ _ _ ?_
      rw [readAll_run]
      exact .wr (.refl _ _)
    obtain ⟨k, g1⟩ := g1
    have g2 : Goes (getNormReordered W x) (Function.update m (.upToDate x) true) (.ret (m (.norm x))) (Function.update m (.upToDate x) true) := by
      refine .rd ?_
      rw [Function.update_self]
      refine .rd ?_
      rw [Function.update_of_ne (by simp)]
      exact .refl _ _
    obtain ⟨c, h1, -, -, h2⟩ := two_at _ _ [getNormReordered W x, getNormReordered W x] (i := 0) (j := 1) (by simp) rfl rfl g1 g2
    exact ⟨c, h1, h2⟩

/-! ### Threads that respect ownership -/

/-- The locations of thread `i`: everything in the matrices it owns. -/
def Mine (own : Nat → Option Nat) (i : Nat) : Loc → Prop
  | .elem x _ => own x = some i
  | .norm x => own x = some i
  | .upToDate x => own x = some i
  | .occ x => own x = some i
  | _ => False

/-- The locations of shared matrices. -/
def Common (own : Nat → Option Nat) : Loc → Prop
  | .elem x _ => own x = none
  | .norm x => own x = none
  | .upToDate x => own x = none
  | _ => False

theorem getNorm_within {W : World R} {own : Nat → Option Nat} {m : ∀ l, Obj R l} {i x : Nat}
    (h : own x = some i ∨ (own x = none ∧ m (.upToDate x) = true)) : (getNorm W x).Within m (Mine own i) (Common own) := by
  rcases h with h | ⟨h, hu⟩
  · refine .inl ⟨h, fun b => Act.Within.bind ?_ fun _ => .inl ⟨h, fun _ => trivial⟩⟩
    cases b with
    | true => trivial
    | false =>
      refine .inl ⟨h, fun b => ?_⟩
      cases b with
      | true => trivial
      | false => exact Act.Within.bind (readAll_within (fun _ => .inl h) _ _) fun _ => ⟨h, h, trivial⟩
  · refine .inr ⟨h, ?_⟩
    rw [hu]
    exact .inr ⟨h, trivial⟩

theorem call_within [Zero R] [Add R] [Mul R] [LT R] [DecidableLT R] {W : World R} {own : Nat → Option Nat} {m : ∀ l, Obj R l} {i : Nat} {c : Call R}
    (h : c.Respects W own m i) : (c.act W).Within m (Mine own i) (Common own) := by
  cases c with
  | get x p =>
    rcases h with h | h
    · exact .inl ⟨h, fun _ => trivial⟩
    · exact .inr ⟨h, trivial⟩
  | norm x => exact (getNorm_within h).bind fun _ => trivial
  | normLarger x v => exact (getNorm_within h).bind fun _ => trivial
  | count x k =>
    have h : own x = some i := h
    refine Act.Within.bind (.inl ⟨h, fun l => ?_⟩) fun _ => trivial
    beta_reduce
    cases List.lookup k l with
    | some n => exact ⟨h, trivial⟩
    | none => exact Act.Within.bind (readAll_within (fun _ => .inl h) _ _) fun _ => .inl ⟨h, fun _ => ⟨h, trivial⟩⟩
  | mul c a b d =>
    obtain ⟨h0, h1, h2, h3⟩ := h
    refine Act.Within.bind ?_ fun _ => trivial
    rw [mulDense_eq, h0]
    exact (mulBody_within W c a b (fun _ => h1) (fun _ => h2) (fun _ => h3)).bind fun _ => trivial

theorem thread_within [Zero R] [Add R] [Mul R] [LT R] [DecidableLT R] {W : World R} {own : Nat → Option Nat} {m : ∀ l, Obj R l} {i : Nat} {cs : List (Call R)}
    (h : ∀ c ∈ cs, c.Respects W own m i) : (thread W cs).Within m (Mine own i) (Common own) := by
  induction cs with
  | nil => trivial
  | cons c cs ih =>
    exact (call_within (h c List.mem_cons_self)).bind fun _ => (ih fun c hc => h c (List.mem_cons_of_mem _ hc)).bind fun _ => trivial

/-- C103: without the tracker, if every thread changes only matrices of its own and reads only those and shared ones (whose
norms, if asked for, have been computed before), there is no data race in any execution; and when all threads have
finished, every thread has the answers, and every matrix the contents, that the thread's calls give when they are executed
alone. -/
theorem C103_independent_partial [Zero R] [Add R] [Mul R] [LT R] [DecidableLT R] (W : World R) (own : Nat → Option Nat) (m : ∀ l, Obj R l)
    (ps : List (List (Call R))) (hp : ∀ (i : Nat) p, ps[i]? = some p → ∀ c ∈ p, c.Respects W own m i)
    (c : Cfg (Obj R) (List (Ans R))) (h : Steps (start W m ps) c) :
    ¬ Race c ∧ ∀ as, Done c as → as = ps.map (fun p => ((thread W p).run m).2) ∧
      (∀ (i : Nat) p x q, ps[i]? = some p → own x = some i → c.mem (.elem x q) = ((thread W p).run m).1 (.elem x q)) ∧
      ∀ x q, own x = none → c.mem (.elem x q) = m (.elem x q) := by
  have hd : ∀ i j l, Mine own i l → Mine own j l → i = j := by
    intro i j l h1 h2
    cases l <;> simp only [Mine] at h1 h2 <;> first | exact h1.elim | (rw [h1] at h2; exact Option.some.inj h2)
  have hro : ∀ i l, Mine own i l → ¬ Common own l := by
    intro i l h1 h2
    cases l <;> simp only [Mine, Common] at h1 h2
    all_goals (rw [h1] at h2; cases h2)
  have S := Sep.steps (m0 := m) (mine := Mine own) (ro := Common own) (ths0 := ps.map (thread W)) (by
    intro i a hi
    simp only [List.getElem?_map, Option.map_eq_some_iff] at hi
    obtain ⟨p, hp', rfl⟩ := hi
    exact thread_within (hp i p hp')) hd hro h
  refine ⟨S.no_race hd hro, ?_⟩
  intro as hdone
  have get : ∀ i p, ps[i]? = some p → ∃ a, as[i]? = some a ∧ a = ((thread W p).run m).2 ∧ ∀ l, Mine own i l → c.mem l = ((thread W p).run m).1 l := by
    intro i p hi
    have hlt : i < as.length := by
      have h1 : as.length = ps.length := by
        have := S.len
        rw [hdone] at this
        simpa using this
      rw [h1]; exact (List.getElem?_eq_some_iff.1 hi).1
    have h1 : c.threads[i]? = some (.ret as[i]) := by rw [hdone, List.getElem?_map, List.getElem?_eq_getElem hlt]; rfl
    have h2 : (ps.map (thread W))[i]? = some (thread W p) := by rw [List.getElem?_map, hi]; rfl
    obtain ⟨-, h3, h4⟩ := S.ths i _ _ h1 h2
    exact ⟨_, List.getElem?_eq_getElem hlt, h3, h4⟩
  refine ⟨?_, ?_, ?_⟩
  · apply List.ext_getElem?
    intro i
    cases hi : ps[i]? with
    | none =>
      have h1 : as.length = ps.length := by
        have := S.len
        rw [hdone] at this
        simpa using this
      rw [List.getElem?_eq_none_iff] at hi
      rw [List.getElem?_eq_none (by omega), List.getElem?_eq_none (by simpa using hi)]
    | some p =>
      obtain ⟨a, h1, h2, -⟩ := get i p hi
      rw [h1, h2, List.getElem?_map, hi]; rfl
  · intro i p x q hi hx
    obtain ⟨-, -, -, h3⟩ := get i p hi
    exact h3 (.elem x q) hx
  · intro x q hx
    exact S.kept (.elem x q) hx

/-! ### Concurrent products -/

theorem forN_run {m : ∀ l, Obj R l} {n : Nat} {f : Nat → Act (Obj R) Unit} (I : Nat → (∀ l, Obj R l) → Prop) (h0 : I 0 m)
    (hs : ∀ i m, i < n → I i m → I (i + 1) ((f i).run m).1) : I n ((Act.forN n f).run m).1 := by
  induction n with
  | zero => exact h0
  | succ n ih =>
    simp only [Act.forN, Act.run_bind]
    exact hs n _ (by omega) (ih fun i m hi h => hs i m (by omega) h)

theorem pos_inj {r i j i' j' : Nat} (hi : i < r) (hi' : i' < r) (h : j * r + i = j' * r + i') : i = i' ∧ j = j' := by
  have h1 : (j * r + i) % r = i := by rw [Nat.mul_comm, Nat.mul_add_mod]; exact Nat.mod_eq_of_lt hi
  have h2 : (j' * r + i') % r = i' := by rw [Nat.mul_comm, Nat.mul_add_mod]; exact Nat.mod_eq_of_lt hi'
  have h3 : i = i' := by rw [← h1, ← h2, h]
  subst h3
  refine ⟨rfl, ?_⟩
  have : j * r = j' * r := by omega
  exact Nat.eq_of_mul_eq_mul_right (by omega) this

/-- The product executed alone. -/
theorem mulBody_run [Zero R] [Add R] [Mul R] (W : World R) (c a b : Nat) (hca : c ≠ a) (hcb : c ≠ b) (m : ∀ l, Obj R l) (i j : Nat)
    (hi : i < W.rows a) (hj : j < W.cols b) :
    ((mulBody W c a b).run m).1 (.elem c (j * W.rows a + i)) =
      dotSeq (fun i k => (m (.elem a (k * W.rows a + i)) : R)) (fun k j => m (.elem b (j * W.rows b + k))) (W.rows b) i j := by
  let f : Nat → Nat → R := fun i k => m (.elem a (k * W.rows a + i))
  let g : Nat → Nat → R := fun k j => m (.elem b (j * W.rows b + k))
  -- the value of element (i,j) after `n i j` products have been added
  let I : (Nat → Nat → Nat) → (∀ l, Obj R l) → Prop := fun n m' => (∀ x p, x ≠ c → m' (.elem x p) = m (.elem x p)) ∧
    ∀ i j, i < W.rows a → j < W.cols b → m' (.elem c (j * W.rows a + i)) = dotSeq f g (n i j) i j
  have I_congr : ∀ {n n' : Nat → Nat → Nat} {m'}, (∀ i j, i < W.rows a → j < W.cols b → n i j = n' i j) → I n m' → I n' m' := by
    intro n n' m' hn h
    exact ⟨h.1, fun i j hi hj => by rw [← hn i j hi hj]; exact h.2 i j hi hj⟩
  -- filling with zeros
  have zero : I (fun _ _ => 0) ((Act.forN (W.rows a * W.cols b) fun p => (.wr (.elem c p) (0 : R) (.ret ()) : Act (Obj R) Unit)).run m).1 := by
    have := forN_run (m := m) (n := W.rows a * W.cols b) (f := fun p => (.wr (.elem c p) (0 : R) (.ret ()) : Act (Obj R) Unit))
      (fun n m' => (∀ x p, x ≠ c → m' (.elem x p) = m (.elem x p)) ∧ ∀ p, p < n → m' (.elem c p) = (0 : R)) ⟨fun _ _ _ => rfl, fun _ h => by omega⟩ ?_
    · refine ⟨this.1, fun i j hi hj => this.2 _ ?_⟩
      calc j * W.rows a + i < j * W.rows a + W.rows a := by omega
        _ = (j + 1) * W.rows a := by ring
        _ ≤ W.cols b * W.rows a := Nat.mul_le_mul_right _ hj
        _ = _ := Nat.mul_comm _ _
    · intro n m' hn h
      simp only [Act.run]
      refine ⟨fun x p hx => ?_, fun p hp => ?_⟩
      · rw [Function.update_of_ne (by simp [hx])]; exact h.1 x p hx
      · by_cases e : p = n
        · subst e; rw [Function.update_self]
        · rw [Function.update_of_ne (by simpa using e)]; exact h.2 p (by omega)
  have cell : ∀ i j k m', i < W.rows a → j < W.cols b → I (fun i' j' => if j' < j then W.rows b else if j' = j then (if i' < i then k + 1 else k) else 0) m' →
      I (fun i' j' => if j' < j then W.rows b else if j' = j then (if i' < i + 1 then k + 1 else k) else 0)
        ((mulCell c a b (j * W.rows a + i) (k * W.rows a + i) (j * W.rows b + k)).run m').1 := by
    intro i j k m' hi hj h
    simp only [mulCell, Act.run]
    refine ⟨fun x p hx => ?_, fun i' j' hi' hj' => ?_⟩
    · rw [Function.update_of_ne (by simp [hx])]; exact h.1 x p hx
    · by_cases e : j' * W.rows a + i' = j * W.rows a + i
      · obtain ⟨rfl, rfl⟩ := pos_inj hi' hi e
        rw [Function.update_self, h.2 i' j' hi' hj', h.1 a _ (Ne.symm hca), h.1 b _ (Ne.symm hcb)]
        simp only [Nat.lt_irrefl, if_false, if_true, Nat.lt_succ_self]
        rw [dotSeq_succ]
      · rw [Function.update_of_ne (by simpa using e), h.2 i' j' hi' hj']
        congr 1
        by_cases e1 : j' < j
        · simp [e1]
        · by_cases e2 : j' = j
          · subst e2
            have : i' ≠ i := fun e3 => e (by rw [e3])
            have : (i' < i + 1) = (i' < i) := propext ⟨fun _ => by omega, fun _ => by omega⟩
            simp only [this]
          · simp [e1, e2]
  have all : I (fun _ _ => W.rows b) ((mulBody W c a b).run m).1 := by
    unfold mulBody
    rw [Act.run_bind]
    refine I_congr ?_ (forN_run (fun j => I (fun i' j' => if j' < j then W.rows b else 0)) ?_ ?_)
    · intro i j _ hj; simp [hj]
    · refine I_congr ?_ zero
      intro i j _ _; simp
    · intro j m1 hj h1
      refine I_congr ?_ (forN_run (fun k => I (fun i' j' => if j' < j then W.rows b else if j' = j then k else 0)) ?_ ?_)
      · intro i' j' _ _
        by_cases e1 : j' < j
        · simp [e1, show j' < j + 1 by omega]
        · by_cases e2 : j' = j
          · simp [e2]
          · simp [e1, e2, show ¬ j' < j + 1 by omega]
      · refine I_congr ?_ h1
        intro i' j' _ _
        by_cases e1 : j' < j <;> simp [e1]
      · intro k m2 hk h2
        refine I_congr ?_ (forN_run (fun i => I (fun i' j' => if j' < j then W.rows b else if j' = j then (if i' < i then k + 1 else k) else 0)) ?_ ?_)
        · intro i' j' hi' _; simp [hi']
        · refine I_congr ?_ h2
          intro i' j' _ _; simp
        · intro i m3 hi h3
          exact cell i j k m3 hi hj h3
  exact all.2 i j hi hj

/-- C103: any number of threads compute one product each, into matrices of their own, from shared operands (the same or
different ones).  Without the tracker there is no data race, and in the end every target is the product of its operands. -/
theorem C103_products_partial [Zero R] [Add R] [Mul R] [LT R] [DecidableLT R] (W : World R) (hW : W.tracked = false) (m : ∀ l, Obj R l)
    (jobs : List (Nat × Nat × Nat)) (hc : (jobs.map fun j => j.1).Nodup) (hs : ∀ j ∈ jobs, ∀ k ∈ jobs, j.1 ≠ k.2.1 ∧ j.1 ≠ k.2.2)
    (s : Cfg (Obj R) (List (Ans R))) (h : Steps (start W m (jobs.map fun j => [.mul j.1 j.2.1 j.2.2 0])) s) :
    ¬ Race s ∧ ∀ as, Done s as → ∀ t ∈ jobs, ∀ i j, i < W.rows t.2.1 → j < W.cols t.2.2 →
      s.mem (.elem t.1 (j * W.rows t.2.1 + i)) =
        dotSeq (fun i k => (m (.elem t.2.1 (k * W.rows t.2.1 + i)) : R)) (fun k j => m (.elem t.2.2 (j * W.rows t.2.2 + k))) (W.rows t.2.2) i j := by
  let own : Nat → Option Nat := fun x => if x ∈ jobs.map (fun j => j.1) then some ((jobs.map fun j => j.1).idxOf x) else none
  have own_c : ∀ (i : Nat) t, jobs[i]? = some t → own t.1 = some i := by
    intro i t hi
    have hlt := (List.getElem?_eq_some_iff.1 hi).1
    have hm : (jobs.map fun j => j.1)[i]'(by simpa using hlt) = t.1 := by
      simp [(List.getElem?_eq_some_iff.1 hi).2]
    have h1 : t.1 ∈ jobs.map (fun j => j.1) := List.mem_map_of_mem (List.mem_of_getElem? hi)
    simp only [own]
    rw [if_pos h1, ← hm, hc.idxOf_getElem]
  have own_n : ∀ x, (∀ j ∈ jobs, j.1 ≠ x) → own x = none := by
    intro x hx
    simp only [own]
    rw [if_neg]
    intro h1
    obtain ⟨j, hj, e⟩ := List.mem_map.1 h1
    exact hx j hj e
  have key := C103_independent_partial W own m _ ?_ s h
  · refine ⟨key.1, ?_⟩
    intro as hd t ht i j hi hj
    obtain ⟨-, h2, -⟩ := key.2 as hd
    obtain ⟨n, hn, e⟩ := List.getElem_of_mem ht
    have ht' : jobs[n]? = some t := by rw [List.getElem?_eq_getElem hn, e]
    rw [h2 n [.mul t.1 t.2.1 t.2.2 0] t.1 _ (by rw [List.getElem?_map, ht']; rfl) (own_c n t ht')]
    have e2 : (thread W [.mul t.1 t.2.1 t.2.2 0]).run m = ((mulBody W t.1 t.2.1 t.2.2).bind fun _ => Act.ret [Ans.unit]).run m := by
      simp only [thread, Call.act, mulDense_eq, hW, Act.run_bind, Act.run, Bool.false_eq_true, if_false]
    rw [e2, Act.run_bind]
    exact mulBody_run W t.1 t.2.1 t.2.2 (hs t ht t ht).1 (hs t ht t ht).2 m i j hi hj
  · intro n p hp k hk
    rw [List.getElem?_map, Option.map_eq_some_iff] at hp
    obtain ⟨t, ht, rfl⟩ := hp
    rw [List.mem_singleton] at hk
    subst hk
    have hm := List.mem_of_getElem? ht
    exact ⟨hW, own_c n t ht, .inr (own_n _ fun j hj => (hs j hj t hm).1), .inr (own_n _ fun j hj => (hs j hj t hm).2)⟩

/-! ### Concrete cases

Matrices of 2×2 integers; matrix 0 is (1 3; 2 4), matrix 1 is (5 7; 6 8), the others are zero; no norm is up to date. -/

/-- All matrices 2×2, the norm is the sum of the elements, occupation counts the elements above the key. -/
def exWorld (tracked : Bool) : World Int := ⟨fun _ => 2, fun _ => 2, List.sum, fun k l => (l.filter fun x => (k : Int) < x).length, tracked⟩

/-- The memory at the beginning. -/
def exMem : ∀ l, Obj Int l
  | .elem x p => if x = 0 then (p + 1 : Int) else if x = 1 then (p + 5 : Int) else (0 : Int)
  | .norm _ => (0 : Int)
  | .upToDate _ => false
  | .occ _ => []
  | .time _ => (0 : Int)
  | .count _ => (0 : Nat)

theorem exMem_valid : CacheValid (exWorld false) exMem := by intro x h; cases h

/-- Two threads ask for the same norm and read elements; both get 10. -/
example (c : Cfg (Obj Int) (List (Ans Int)))
    (h : Steps (start (exWorld false) exMem [[.norm 0, .get 0 1], [.normLarger 0 9, .norm 0]]) c) (as : List (Ans Int))
    (hd : c.threads[0]? = some (.ret as)) : as = [.num 10, .num 2] := by
  obtain ⟨p, h1, h2⟩ := (C103_readers_partial (exWorld false) exMem exMem_valid [[.norm 0, .get 0 1], [.normLarger 0 9, .norm 0]]
    (by intro p hp c hc; simp only [List.mem_cons, List.not_mem_nil, or_false] at hp
        rcases hp with rfl | rfl <;> simp only [List.mem_cons, List.not_mem_nil, or_false] at hc <;> rcases hc with rfl | rfl <;> trivial) c h).2 0 as hd
  obtain rfl : [Call.norm 0, .get 0 1] = p := by simpa using h1
  have h3 : as.map some = [Ans.num 10, Ans.num 2].map some := h2
  exact (List.map_inj_right fun _ _ e => Option.some.inj e).1 h3

/-- … although these two threads race. -/
example : ∃ c, Steps (start (exWorld false) exMem [[.norm 0, .get 0 1], [.norm 0]]) c ∧ Race c :=
  C103_norm_races (exWorld false) exMem 0 rfl _ 0 1 (by decide) [.get 0 1] [] rfl rfl

example : ∃ c, Steps (start (exWorld false) exMem [[.count 0 2], [.count 0 2]]) c ∧ Race c :=
  C103_occupation_races (exWorld false) exMem 0 2 2 _ 0 1 (by decide) [] [] rfl rfl

example : ∃ c, Steps (start (exWorld true) exMem [[.mul 2 0 1 5], [.mul 3 0 1 7]]) c ∧ Race c :=
  C103_tracker_races (exWorld true) rfl exMem _ 0 1 (by decide) 2 0 1 3 0 1 5 7 [] [] rfl rfl

/-- Two threads multiply the same operands into different targets. -/
example (s : Cfg (Obj Int) (List (Ans Int))) (h : Steps (start (exWorld false) exMem [[.mul 2 0 1 0], [.mul 3 1 0 0]]) s) :
    ¬ Race s ∧ ∀ as, Done s as → s.mem (.elem 2 0) = (23 : Int) ∧ s.mem (.elem 3 0) = (19 : Int) := by
  have key := C103_products_partial (exWorld false) rfl exMem [(2, 0, 1), (3, 1, 0)] (by decide) (by decide) s h
  refine ⟨key.1, fun as hd => ⟨?_, ?_⟩⟩
  · exact key.2 as hd (2, 0, 1) (by decide) 0 0 (by decide) (by decide)
  · exact key.2 as hd (3, 1, 0) (by decide) 0 0 (by decide) (by decide)

end BB.Par
