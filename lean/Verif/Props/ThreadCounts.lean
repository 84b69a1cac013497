import Verif.Props.Threads

/-!
# What the tracker counts when threads race (C103)
-/

namespace BB.Par

variable {R A B : Type}

/-- The sequence of accesses increments the tracker's counter of `id` exactly `n` times, each time by reading it and writing the
successor, and does not access it otherwise. -/
inductive Incs (id : Tracker.Id) : Act (Obj R) A → Nat → Prop
  | ret (a : A) : Incs id (.ret a) 0
  | rd (l : Loc) (k : Obj R l → Act (Obj R) A) (n : Nat) : l ≠ .count id → (∀ v, Incs id (k v) n) → Incs id (.rd l k) n
  | wr (l : Loc) (v : Obj R l) (k : Act (Obj R) A) (n : Nat) : l ≠ .count id → Incs id k n → Incs id (.wr l v k) n
  | inc (k : Act (Obj R) A) (n : Nat) : Incs id k n → Incs id (.rd (.count id) fun (v : Nat) => .wr (.count id) (v + 1 : Nat) k) (n + 1)

theorem Incs.bind {id : Tracker.Id} {a : Act (Obj R) A} {n m : Nat} {f : A → Act (Obj R) B} (ha : Incs id a n) (hf : ∀ x, Incs id (f x) m) :
    Incs id (a.bind f) (n + m) := by
  induction ha with
  | ret a => simpa [Act.bind] using hf a
  | rd l k n hl _ ih => exact .rd l _ _ hl ih
  | wr l v k n hl _ ih => exact .wr l v _ _ hl ih
  | inc k n _ ih =>
    have : n + 1 + m = n + m + 1 := by omega
    rw [this]
    exact .inc _ _ ih

theorem Incs.forN {id : Tracker.Id} {n : Nat} {f : Nat → Act (Obj R) Unit} (h : ∀ i, Incs id (f i) 0) : Incs id (Act.forN n f) 0 := by
  induction n with
  | zero => exact .ret _
  | succ n ih => exact ih.bind fun _ => h n

theorem readAll_incs (id : Tracker.Id) (x p n : Nat) : Incs id (readAll (R := R) x p n) 0 := by
  induction n generalizing p with
  | zero => exact .ret _
  | succ n ih => exact .rd _ _ _ (by simp) fun v => (ih (p + 1)).bind (m := 0) fun l => .ret _

theorem updateNorm_incs (id : Tracker.Id) (W : World R) (x : Nat) : Incs id (updateNorm W x) 0 := by
  refine .rd _ _ _ (by simp) fun b => ?_
  split
  · exact .ret _
  · exact (readAll_incs id x _ _).bind (m := 0) fun l => .wr _ _ _ _ (by simp) (.wr _ _ _ _ (by simp) (.ret _))

theorem getNorm_incs (id : Tracker.Id) (W : World R) (x : Nat) : Incs id (getNorm W x) 0 := by
  refine .rd _ _ _ (by simp) fun b => ?_
  refine Incs.bind (n := 0) (m := 0) ?_ fun _ => .rd _ _ _ (by simp) fun v => .ret _
  split
  · exact .ret _
  · exact updateNorm_incs id W x

theorem getCount_incs (id : Tracker.Id) (W : World R) (x k : Nat) : Incs id (getCount W x k) 0 := by
  refine .rd _ _ _ (by simp) fun m => ?_
  cases List.lookup k m with
  | some n => exact .wr _ _ _ _ (by simp) (.ret _)
  | none => exact (readAll_incs id x _ _).bind (m := 0) fun l => .rd _ _ _ (by simp) fun m => .wr _ _ _ _ (by simp) (.ret _)

/-- The product is recorded. -/
def Call.tracked : Call R → Bool
  | .mul _ _ _ _ => true
  | _ => false

theorem trackerAdd_incs (id : Tracker.Id) (d : Int) : Incs id (trackerAdd (R := R) id d) 1 :=
  .rd _ _ _ (by simp) fun t => .wr _ _ _ _ (by simp) (.inc _ _ (.ret _))

variable [Zero R] [Add R] [Mul R] [LT R] [DecidableLT R]

theorem call_incs (W : World R) (hW : W.tracked = true) (c : Call R) : Incs idDense (c.act W) (if c.tracked then 1 else 0) := by
  cases c with
  | get x p => exact .rd _ _ _ (by simp) fun v => .ret _
  | norm x => exact (getNorm_incs _ W x).bind (m := 0) fun v => .ret _
  | normLarger x v => exact (getNorm_incs _ W x).bind (m := 0) fun n => .ret _
  | count x k => exact (getCount_incs _ W x k).bind (m := 0) fun n => .ret _
  | mul c a b d =>
    refine Incs.bind (n := 1) (m := 0) ?_ fun _ => .ret _
    unfold mulDense
    refine Incs.bind (n := 0) (m := 1) (Incs.forN fun p => .wr _ _ _ _ (by simp) (.ret _)) fun _ => ?_
    refine Incs.bind (n := 0) (m := 1) (Incs.forN fun j => Incs.forN fun k => Incs.forN fun i => ?_) fun _ => ?_
    · exact .rd _ _ _ (by simp) fun va => .rd _ _ _ (by simp) fun vb => .rd _ _ _ (by simp) fun vc => .wr _ _ _ _ (by simp) (.ret _)
    · rw [if_pos hW]
      exact trackerAdd_incs _ _

theorem thread_incs (W : World R) (hW : W.tracked = true) (cs : List (Call R)) : Incs idDense (thread W cs) (cs.countP Call.tracked) := by
  induction cs with
  | nil => exact .ret _
  | cons c cs ih =>
    have : (c :: cs).countP Call.tracked = (if c.tracked then 1 else 0) + (cs.countP Call.tracked + 0) := by
      rw [List.countP_cons]; split <;> simp_all [Nat.add_comm]
    rw [this]
    exact (call_incs W hW c).bind fun a => ih.bind fun as => .ret _

omit [Zero R] [Add R] [Mul R] [LT R] [DecidableLT R] in
theorem sum_set {ns : List Nat} {i n : Nat} (h : ns[i]? = some (n + 1)) : (ns.set i n).sum + 1 = ns.sum := by
  induction ns generalizing i with
  | nil => simp at h
  | cons a ns ih =>
    cases i with
    | zero => simp at h; simp [h]; omega
    | succ i => simp at h; simp; have := ih h; omega

omit [Zero R] [Add R] [Mul R] [LT R] [DecidableLT R] in
theorem sum_zero {ns : List Nat} (h : ∀ x ∈ ns, x = 0) : ns.sum = 0 := by
  induction ns with
  | nil => rfl
  | cons a ns ih =>
    rw [List.sum_cons, h a (by simp), ih fun x hx => h x (by simp [hx])]

/-- The tracker's counter of `id`. -/
def counter (id : Tracker.Id) (m : ∀ l, Obj R l) : Nat := m (.count id)

/-- What a thread still has to do, `n` increments; `lo` bounds what it may be about to write from below, `hi` from above. -/
def Left (id : Tracker.Id) (lo hi : Nat) (a : Act (Obj R) A) (n : Nat) : Prop :=
  Incs id a n ∨ ∃ (w : Nat) (k : Act (Obj R) A) (n' : Nat), a = .wr (.count id) w k ∧ n = n' + 1 ∧ Incs id k n' ∧ lo < w ∧ w ≤ hi + 1

/-- The threads have `ns` increments left; the counter is at least `lo`, more if one was done, and at most `lo` plus those done. -/
structure Bounded (id : Tracker.Id) (lo total : Nat) (c : Cfg (Obj R) A) (ns : List Nat) : Prop where
  len : ns.length = c.threads.length
  left : ∀ (i : Nat) a, c.threads[i]? = some a → ∃ n, ns[i]? = some n ∧ Left id lo (lo + total - ns.sum) a n
  le : ns.sum ≤ total
  low : lo ≤ counter id c.mem
  more : ns.sum = total ∨ lo < counter id c.mem
  high : counter id c.mem ≤ lo + total - ns.sum

omit [Zero R] [Add R] [Mul R] [LT R] [DecidableLT R] in
theorem Left.mono {id : Tracker.Id} {lo hi hi' : Nat} {a : Act (Obj R) A} {n : Nat} (h : Left id lo hi a n) (hh : hi ≤ hi') : Left id lo hi' a n := by
  rcases h with h | ⟨w, k, n', h1, h2, h3, h4, h5⟩
  · exact .inl h
  · exact .inr ⟨w, k, n', h1, h2, h3, h4, by omega⟩

omit [Zero R] [Add R] [Mul R] [LT R] [DecidableLT R] in
theorem Bounded.step {id : Tracker.Id} {lo total : Nat} {c c' : Cfg (Obj R) A} {ns : List Nat} (h : Bounded id lo total c ns) (hs : Step c c') :
    ∃ ns', Bounded id lo total c' ns' := by
  have keep : ∀ (i : Nat) (b : Act (Obj R) A) (n : Nat) (m : ∀ l, Obj R l), ns[i]? = some n → Left id lo (lo + total - ns.sum) b n →
      counter id m = counter id c.mem → Bounded id lo total ⟨m, c.threads.set i b⟩ ns := by
    intro i b n m hn hb hm
    refine ⟨by simpa using h.len, ?_, h.le, (show lo ≤ counter id m by rw [hm]; exact h.low), ?_, ?_⟩
    rotate_left
    · show _ ∨ lo < counter id m
      rw [hm]; exact h.more
    · show counter id m ≤ _
      rw [hm]; exact h.high
    intro j a hj
    have hj : (c.threads.set i b)[j]? = some a := hj
    by_cases hij : i = j
    · subst hij
      have hlt : i < c.threads.length := h.len ▸ (List.getElem?_eq_some_iff.1 hn).1
      rw [List.getElem?_set_self hlt] at hj
      cases hj
      exact ⟨n, hn, hb⟩
    · rw [List.getElem?_set_ne hij] at hj
      exact h.left j a hj
  cases hs with
  | rd i l k hi =>
    obtain ⟨n, hn, hl⟩ := h.left i _ hi
    refine ⟨ns, keep i _ n c.mem hn ?_ rfl⟩
    rcases hl with hl | ⟨w, k', n', h1, -⟩
    · cases hl with
      | rd _ _ _ _ hk => exact .inl (hk _)
      | inc k n hk =>
        refine .inr ⟨_, _, n, rfl, rfl, hk, Nat.lt_succ_of_le h.low, ?_⟩
        have := h.high
        exact Nat.succ_le_succ this
    · cases h1
  | wr i l v k hi =>
    obtain ⟨n, hn, hl⟩ := h.left i _ hi
    rcases hl with hl | ⟨w, k', n', h1, h2, h3, h4, h5⟩
    · cases hl with
      | wr _ _ _ _ hne hk =>
        refine ⟨ns, keep i _ n _ hn (.inl hk) ?_⟩
        unfold counter
        rw [Function.update_of_ne (Ne.symm hne)]
    · cases h1
      subst h2
      have hsum := sum_set hn
      have h4 : @LT.lt Nat _ lo w := h4
      have h5 : @LE.le Nat _ w (lo + total - ns.sum + 1) := h5
      have hv : counter id (Function.update c.mem (.count id) w) = w := by unfold counter; rw [Function.update_self]
      have hle := h.le
      refine ⟨ns.set i n', ⟨by simpa using h.len, ?_, by omega, ?_, ?_, ?_⟩⟩
      · intro j a hj
        have hj : (c.threads.set i k)[j]? = some a := hj
        by_cases hij : i = j
        · subst hij
          have hlt : i < ns.length := (List.getElem?_eq_some_iff.1 hn).1
          rw [List.getElem?_set_self (h.len ▸ hlt)] at hj
          cases hj
          exact ⟨n', by rw [List.getElem?_set_self hlt], .inl h3⟩
        · rw [List.getElem?_set_ne hij] at hj
          obtain ⟨n, h1, h2⟩ := h.left j a hj
          exact ⟨n, by rw [List.getElem?_set_ne hij]; exact h1, h2.mono (by omega)⟩
      · rw [hv]; exact Nat.le_of_lt h4
      · rw [hv]; exact .inr h4
      · rw [hv]; omega

/-- C103, what is left of the counts, for all threads, programs and interleavings: when all threads have finished, the tracker's counter
has grown by at most the number of products, and by at least one if there was any.  (By how much depends on the interleaving,
`C103_tracker_loses_counts`.) -/
theorem C103_tracker_count_bounds (W : World R) (hW : W.tracked = true) (m : ∀ l, Obj R l) (ps : List (List (Call R)))
    (c : Cfg (Obj R) (List (Ans R))) (as : List (List (Ans R))) (h : Steps (start W m ps) c) (hd : Done c as) :
    let products := (ps.map fun p => p.countP Call.tracked).sum
    counter idDense m + min products 1 ≤ counter idDense c.mem ∧ counter idDense c.mem ≤ counter idDense m + products := by
  intro products
  have key : ∃ ns, Bounded idDense (counter idDense m) products c ns := by
    clear hd
    induction h with
    | refl =>
      refine ⟨ps.map fun p => p.countP Call.tracked, ⟨by simp [start], ?_, Nat.le_refl _, Nat.le_refl _, .inl rfl, ?_⟩⟩
      · intro i a hi
        simp only [start, List.getElem?_map, Option.map_eq_some_iff] at hi
        obtain ⟨p, hp, rfl⟩ := hi
        exact ⟨_, by rw [List.getElem?_map, hp]; rfl, .inl (thread_incs W hW p)⟩
      · show counter idDense m ≤ _
        omega
    | tail _ hs ih =>
      obtain ⟨ns, ih⟩ := ih
      exact ih.step hs
  obtain ⟨ns, hb⟩ := key
  have hz : ns.sum = 0 := by
    refine sum_zero fun x hx => ?_
    obtain ⟨i, hi, rfl⟩ := List.mem_iff_getElem.1 hx
    have hi' : i < c.threads.length := hb.len ▸ hi
    obtain ⟨n, h1, h2⟩ := hb.left i _ (List.getElem?_eq_getElem hi')
    rw [List.getElem?_eq_getElem hi] at h1
    cases h1
    have hr : ∃ a, c.threads[i] = .ret a := by
      have hd : c.threads = as.map .ret := hd
      simp only [hd, List.getElem_map]
      exact ⟨_, rfl⟩
    obtain ⟨a, ha⟩ := hr
    rw [ha] at h2
    have key : ∀ n, Left idDense (counter idDense m) (counter idDense m + products - ns.sum) (Act.ret (Val := Obj R) a) n → n = 0 := by
      rintro n (h2 | ⟨_, _, _, h2, -⟩)
      · cases h2; rfl
      · cases h2
    exact key _ h2
  have h1 := hb.more
  have h2 := hb.low
  have h3 := hb.high
  rw [hz] at h1 h3
  constructor
  · rcases h1 with h1 | h1 <;> omega
  · omega

omit [Zero R] [Add R] [Mul R] [LT R] [DecidableLT R] in
theorem Goes.trans {a b c : Act (Obj R) A} {m m' m'' : ∀ l, Obj R l} (h : Goes a m b m') (h' : Goes b m' c m'') : Goes a m c m'' := by
  induction h with
  | refl => exact h'
  | rd _ ih => exact .rd (ih h')
  | wr _ ih => exact .wr (ih h')

omit [Zero R] [Add R] [Mul R] [LT R] [DecidableLT R] in
/-- One thread after the other goes from `x` to `y`. -/
theorem sweep {J : Type} (x y : J → Act (Obj R) A) (I : Nat → (∀ l, Obj R l) → Prop)
    (hs : ∀ j n m, I n m → ∃ m', Goes (x j) m (y j) m' ∧ I (n + 1) m') (js : List J) (n : Nat) (m : ∀ l, Obj R l)
    (pre post : List (Act (Obj R) A)) (h : I n m) :
    ∃ m', Steps ⟨m, pre ++ (js.map x ++ post)⟩ ⟨m', pre ++ (js.map y ++ post)⟩ ∧ I (n + js.length) m' := by
  induction js generalizing n m pre with
  | nil => exact ⟨m, .refl, h⟩
  | cons j js ih =>
    obtain ⟨m1, g, h1⟩ := hs j n m h
    obtain ⟨m2, s, h2⟩ := ih (n + 1) m1 (pre ++ [y j]) h1
    refine ⟨m2, Steps.trans (g.steps (i := pre.length) (by simp)) ?_, ?_⟩
    · simpa using s
    · rw [List.length_cons, ← Nat.add_assoc, Nat.add_right_comm]; exact h2

/-- C103, exactly: if threads compute one product each, every number of counted products from one to all of them occurs; no other number
does (`C103_tracker_count_bounds`). -/
theorem C103_tracker_counts_any_number (W : World R) (hW : W.tracked = true) (m : ∀ l, Obj R l) (jobs : List (Nat × Nat × Nat × Int)) (k : Nat)
    (h1 : 1 ≤ k) (h2 : k ≤ jobs.length) :
    ∃ s as, Steps (start W m (jobs.map fun j => [.mul j.1 j.2.1 j.2.2.1 j.2.2.2])) s ∧ Done s as ∧
      counter idDense s.mem = counter idDense m + k := by
  let fin : Unit → Act (Obj R) (List (Ans R)) := fun _ => (Act.ret Ans.unit).bind fun a => (Act.ret []).bind fun as => .ret (a :: as)
  let x : Nat × Nat × Nat × Int → Act (Obj R) (List (Ans R)) := fun j => (mulDense W j.1 j.2.1 j.2.2.1 j.2.2.2).bind fin
  let pend : Nat → Act (Obj R) (List (Ans R)) := fun v => .wr (.count idDense) (v + 1 : Nat) (fin ())
  have ready : ∀ j m, ∃ m', Goes (x j) m (pend (counter idDense m)) m' ∧ counter idDense m' = counter idDense m := by
    intro j m
    obtain ⟨m1, e1, g1⟩ := tracked_goes W hW j.1 j.2.1 j.2.2.1 j.2.2.2 fin m
    refine ⟨Function.update m1 (.time idDense) (m1 (.time idDense) + j.2.2.2 : Int), g1.trans ?_, ?_⟩
    · refine .rd (.wr (.rd ?_))
      rw [Function.update_of_ne (by simp), e1 _ (by simp)]
      exact .refl _ _
    · unfold counter
      rw [Function.update_of_ne (by simp), e1 _ (by simp)]
  have write : ∀ v m, ∃ m', Goes (pend v) m (.ret [.unit]) m' ∧ counter idDense m' = v + 1 := by
    intro v m
    exact ⟨_, .wr (.refl _ _), by unfold counter; rw [Function.update_self]⟩
  let js := jobs.take (jobs.length - k + 1)
  let rest := jobs.drop (jobs.length - k + 1)
  have hjs : js.length = jobs.length - k + 1 := by simp [js]; omega
  have hrest : rest.length = k - 1 := by simp [rest]; omega
  obtain ⟨m1, s1, c1⟩ := sweep x (fun _ => pend (counter idDense m)) (fun _ m' => counter idDense m' = counter idDense m)
    (fun j _ m' hm => by
      obtain ⟨m'', g, e⟩ := ready j m'
      rw [hm] at g e
      exact ⟨m'', g, e⟩) js 0 m [] (rest.map x) rfl
  obtain ⟨m2, s2, c2⟩ := sweep (fun _ => pend (counter idDense m)) (fun _ : Nat × Nat × Nat × Int => .ret [.unit])
    (fun n m' => 0 < n → counter idDense m' = counter idDense m + 1)
    (fun j _ m' _ => by
      obtain ⟨m'', g, e⟩ := write (counter idDense m) m'
      exact ⟨m'', g, fun _ => e⟩) js 0 m1 [] (rest.map x) (fun h => absurd h (Nat.lt_irrefl _))
  obtain ⟨m3, s3, c3⟩ := sweep x (fun _ => .ret [.unit]) (fun n m' => counter idDense m' = counter idDense m + 1 + n)
    (fun j n m' hm => by
      obtain ⟨m'', g, e⟩ := ready j m'
      obtain ⟨m3, g', e'⟩ := write (counter idDense m') m''
      exact ⟨m3, g.trans g', by rw [e', hm]; omega⟩) rest 0 m2 (js.map fun _ => .ret [.unit]) [] (c2 (by omega))
  have t : ∀ j : Nat × Nat × Nat × Int, thread W [.mul j.1 j.2.1 j.2.2.1 j.2.2.2] = x j := fun j => Act.bind_assoc _ _ _
  have e0 : start W m (jobs.map fun j => [.mul j.1 j.2.1 j.2.2.1 j.2.2.2]) = ⟨m, [] ++ (js.map x ++ rest.map x)⟩ := by
    have : jobs = js ++ rest := (List.take_append_drop _ _).symm
    simp only [start, List.map_map, List.nil_append]
    rw [← List.map_append, ← this]
    congr 1
    exact List.map_congr_left fun j _ => t j
  refine ⟨⟨m3, (js.map fun _ => .ret [.unit]) ++ (rest.map (fun _ => .ret [.unit]) ++ [])⟩, (js ++ rest).map fun _ => [.unit], ?_, ?_, ?_⟩
  · rw [e0]
    refine (s1.trans s2).trans ?_
    simpa using s3
  · unfold Done
    simp [List.map_append, Function.comp_def]
  · show counter idDense m3 = _
    rw [c3]; omega

/-- The hypotheses can be met: three threads, two counted products. -/
example : (exWorld true).tracked = true ∧ 1 ≤ 2 ∧ 2 ≤ [((0, 1, 2, 5) : Nat × Nat × Nat × Int), (3, 1, 2, 7), (4, 1, 2, 9)].length := by decide

end BB.Par
