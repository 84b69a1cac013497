import Verif.Model.Threads

/-!
# Lemmas about interleavings
-/

namespace BB.Par

variable {L : Type} {Val : L → Type} {A B : Type}

theorem Act.run_bind [DecidableEq L] (a : Act Val A) (f : A → Act Val B) (m : ∀ l, Val l) :
    (a.bind f).run m = (f (a.run m).2).run (a.run m).1 := by
  induction a generalizing m with
  | ret a => rfl
  | rd l k ih => exact ih _ _
  | wr l v k ih => exact ih _

/-! ### Threads that share only what nobody writes -/

/-- Writes only locations in `mine`, reads only locations in `mine` or `ro`, provided the latter hold what they hold in
`m0`. -/
def Act.Within (m0 : ∀ l, Val l) (mine ro : L → Prop) : Act Val A → Prop
  | .ret _ => True
  | .rd l k => (mine l ∧ ∀ v, (k v).Within m0 mine ro) ∨ (ro l ∧ (k (m0 l)).Within m0 mine ro)
  | .wr l _ k => mine l ∧ k.Within m0 mine ro

theorem Act.Within.bind {m0 : ∀ l, Val l} {mine ro : L → Prop} {a : Act Val A} {f : A → Act Val B} (ha : a.Within m0 mine ro)
    (hf : ∀ x, (f x).Within m0 mine ro) : (a.bind f).Within m0 mine ro := by
  induction a with
  | ret a => exact hf a
  | rd l k ih =>
    rcases ha with ⟨h, hk⟩ | ⟨h, hk⟩
    · exact .inl ⟨h, fun v => ih v (hk v)⟩
    · exact .inr ⟨h, ih _ hk⟩
  | wr l v k ih => exact ⟨ha.1, ih ha.2⟩

theorem Act.Within.forN {m0 : ∀ l, Val l} {mine ro : L → Prop} {n : Nat} {f : Nat → Act Val Unit}
    (hf : ∀ i, i < n → (f i).Within m0 mine ro) : (Act.forN n f).Within m0 mine ro := by
  induction n with
  | zero => trivial
  | succ n ih => exact (ih fun i hi => hf i (by omega)).bind fun _ => hf n (by omega)

theorem Act.Within.run_congr [DecidableEq L] {m0 m m' : ∀ l, Val l} {mine ro : L → Prop} {a : Act Val A} (ha : a.Within m0 mine ro)
    (hro : ∀ l, mine l → ¬ ro l) (h1 : ∀ l, mine l → m l = m' l) (h2 : ∀ l, ro l → m l = m0 l) (h3 : ∀ l, ro l → m' l = m0 l) :
    (a.run m).2 = (a.run m').2 ∧ ∀ l, mine l → (a.run m).1 l = (a.run m').1 l := by
  induction a generalizing m m' with
  | ret a => exact ⟨rfl, h1⟩
  | rd l k ih =>
    rcases ha with ⟨h, hk⟩ | ⟨h, hk⟩
    · simp only [Act.run, h1 l h]
      exact ih _ (hk _) h1 h2 h3
    · simp only [Act.run, h2 l h, h3 l h]
      exact ih _ hk h1 h2 h3
  | wr l v k ih =>
    simp only [Act.run]
    refine ih ha.2 ?_ ?_ ?_
    · intro l' hl'
      by_cases e : l' = l
      · subst e; simp
      · rw [Function.update_of_ne e, Function.update_of_ne e, h1 l' hl']
    · intro l' hl'
      have : l' ≠ l := fun e => hro l ha.1 (e ▸ hl')
      rw [Function.update_of_ne this, h2 l' hl']
    · intro l' hl'
      have : l' ≠ l := fun e => hro l ha.1 (e ▸ hl')
      rw [Function.update_of_ne this, h3 l' hl']

theorem Act.Within.run_frame [DecidableEq L] {m0 m : ∀ l, Val l} {mine ro : L → Prop} {a : Act Val A} (ha : a.Within m0 mine ro)
    (hro : ∀ l, mine l → ¬ ro l) (h2 : ∀ l, ro l → m l = m0 l) {l : L} (hl : ¬ mine l) : (a.run m).1 l = m l := by
  induction a generalizing m with
  | ret a => rfl
  | rd l' k ih =>
    rcases ha with ⟨h, hk⟩ | ⟨h, hk⟩
    · exact ih _ (hk _) h2
    · simp only [Act.run, h2 _ h]; exact ih _ hk h2
  | wr l' v k ih =>
    simp only [Act.run]
    rw [ih ha.2 ?_]
    · rw [Function.update_of_ne (fun e => hl (by rw [e]; exact ha.1))]
    · intro l'' hl''
      have : l'' ≠ l' := fun e => hro l' ha.1 (e ▸ hl'')
      rw [Function.update_of_ne this, h2 l'' hl'']

/-- What holds in every state threads with separate write locations can reach. -/
structure Sep [DecidableEq L] (m0 : ∀ l, Val l) (mine : Nat → L → Prop) (ro : L → Prop) (ths0 : List (Act Val A)) (c : Cfg Val A) : Prop where
  len : c.threads.length = ths0.length
  kept : ∀ l, ro l → c.mem l = m0 l
  free : ∀ l, (∀ i, ¬ mine i l) → c.mem l = m0 l
  ths : ∀ (i : Nat) (a a0 : Act Val A), c.threads[i]? = some a → ths0[i]? = some a0 → a.Within m0 (mine i) ro ∧ (a.run c.mem).2 = (a0.run m0).2 ∧
    ∀ l, mine i l → (a.run c.mem).1 l = (a0.run m0).1 l

theorem Sep.steps [DecidableEq L] {m0 : ∀ l, Val l} {mine : Nat → L → Prop} {ro : L → Prop} {ths0 : List (Act Val A)}
    (h0 : ∀ (i : Nat) (a : Act Val A), ths0[i]? = some a → a.Within m0 (mine i) ro) (hd : ∀ i j l, mine i l → mine j l → i = j) (hro : ∀ i l, mine i l → ¬ ro l)
    {c : Cfg Val A} (h : Steps ⟨m0, ths0⟩ c) : Sep m0 mine ro ths0 c := by
  induction h with
  | refl =>
    refine ⟨rfl, fun _ _ => rfl, fun _ _ => rfl, ?_⟩
    intro i a a0 h1 h2
    obtain rfl : a = a0 := by
      have h1 : ths0[i]? = some a := h1
      rw [h1] at h2; exact Option.some.inj h2
    exact ⟨h0 i a h2, rfl, fun _ _ => rfl⟩
  | @tail c c' hs hstep ih =>
    have I := ih
    clear ih hs
    have get_set : ∀ {l : List (Act Val A)} {i j : Nat} {x y z : Act Val A}, l[i]? = some z → (l.set i x)[j]? = some y →
        (i = j ∧ y = x) ∨ (i ≠ j ∧ l[j]? = some y) := by
      intro l i j x y z hz hy
      rw [List.getElem?_set] at hy
      by_cases e : i = j
      · subst e
        left
        rw [if_pos rfl, if_pos (List.getElem?_eq_some_iff.1 hz).1] at hy
        exact ⟨rfl, (Option.some.inj hy).symm⟩
      · rw [if_neg e] at hy; exact .inr ⟨e, hy⟩
    cases hstep with
    | rd i l k hi =>
      refine ⟨by simp [I.len], I.kept, I.free, ?_⟩
      intro j a a0 h1 h2
      rcases get_set hi h1 with ⟨rfl, rfl⟩ | ⟨hne, h1⟩
      · obtain ⟨w, e1, e2⟩ := I.ths i _ a0 hi h2
        refine ⟨?_, e1, e2⟩
        rcases w with ⟨h, hk⟩ | ⟨h, hk⟩
        · exact hk _
        · rw [I.kept l h]; exact hk
      · exact I.ths j a a0 h1 h2
    | wr i l v k hi =>
      have hlt : i < ths0.length := by rw [← I.len]; exact (List.getElem?_eq_some_iff.1 hi).1
      obtain ⟨w, e1, e2⟩ := I.ths i _ ths0[i] hi (List.getElem?_eq_getElem hlt)
      have hm : mine i l := w.1
      refine ⟨by simp [I.len], ?_, ?_, ?_⟩
      · intro l' hl'
        have : l' ≠ l := fun e => hro i l hm (e ▸ hl')
        simp only [Function.update_of_ne this]
        exact I.kept l' hl'
      · intro l' hl'
        have : l' ≠ l := fun e => hl' i (e ▸ hm)
        simp only [Function.update_of_ne this]
        exact I.free l' hl'
      · intro j a a0 h1 h2
        rcases get_set hi h1 with ⟨rfl, rfl⟩ | ⟨hne, h1⟩
        · obtain ⟨w, e1, e2⟩ := I.ths i _ a0 hi h2
          exact ⟨w.2, e1, e2⟩
        · obtain ⟨w, e1, e2⟩ := I.ths j a a0 h1 h2
          have hnj : ∀ l', mine j l' → l' ≠ l := fun l' hl' e => hne (hd i j l hm (e ▸ hl'))
          obtain ⟨f1, f2⟩ := w.run_congr (m := Function.update c.mem l v) (m' := c.mem) (hro j)
            (fun l' hl' => Function.update_of_ne (hnj l' hl') _ _)
            (fun l' hl' => by rw [Function.update_of_ne (show l' ≠ l from fun e => hro i l hm (e ▸ hl'))]; exact I.kept l' hl') I.kept
          exact ⟨w, f1.trans e1, fun l' hl' => (f2 l' hl').trans (e2 l' hl')⟩

theorem Sep.no_race [DecidableEq L] {m0 : ∀ l, Val l} {mine : Nat → L → Prop} {ro : L → Prop} {ths0 : List (Act Val A)}
    (hd : ∀ i j l, mine i l → mine j l → i = j) (hro : ∀ i l, mine i l → ¬ ro l) {c : Cfg Val A} (h : Sep m0 mine ro ths0 c) : ¬ Race c := by
  rintro ⟨i, j, a, b, l, hne, ha, hb, acc, wri⟩
  have hlt : ∀ {i a}, c.threads[i]? = some a → i < ths0.length := by
    intro i a hi; rw [← h.len]; exact (List.getElem?_eq_some_iff.1 hi).1
  obtain ⟨wa, -, -⟩ := h.ths i a _ ha (List.getElem?_eq_getElem (hlt ha))
  obtain ⟨wb, -, -⟩ := h.ths j b _ hb (List.getElem?_eq_getElem (hlt hb))
  have hj : mine j l := by
    cases b with
    | ret _ => cases wri
    | rd _ _ => cases wri
    | wr l' v k => cases wri; exact wb.1
  have hi : mine i l ∨ ro l := by
    cases a with
    | ret _ => cases acc
    | rd l' k => cases acc; exact wa.imp (fun x => x.1) (fun x => x.1)
    | wr l' v k => cases acc; exact .inl wa.1
  rcases hi with hi | hi
  · exact hne (hd i j l hi hj)
  · exact hro j l hj hi

/-! ### Threads that rely on each other -/

/-- Whatever the other threads do to the memory within `Rel`, the result is `ans`, and every own write is within `Rel`. -/
def Act.Gives [DecidableEq L] (Rel : (∀ l, Val l) → (∀ l, Val l) → Prop) : Act Val A → (∀ l, Val l) → (A → Prop) → Prop
  | .ret a, _, P => P a
  | .rd l k, m, P => ∀ m', Rel m m' → (k (m' l)).Gives Rel m' P
  | .wr l v k, m, P => ∀ m', Rel m m' → Rel m' (Function.update m' l v) ∧ k.Gives Rel (Function.update m' l v) P

theorem Act.Gives.mono [DecidableEq L] {Rel : (∀ l, Val l) → (∀ l, Val l) → Prop} (tr : ∀ {a b c}, Rel a b → Rel b c → Rel a c)
    {a : Act Val A} {m m' : ∀ l, Val l} {P : A → Prop} (h : a.Gives Rel m P) (hr : Rel m m') : a.Gives Rel m' P := by
  cases a with
  | ret a => exact h
  | rd l k => exact fun m'' h'' => h m'' (tr hr h'')
  | wr l v k => exact fun m'' h'' => h m'' (tr hr h'')

theorem Act.Gives.bind [DecidableEq L] {Rel : (∀ l, Val l) → (∀ l, Val l) → Prop}
    {a : Act Val A} {f : A → Act Val B} {m : ∀ l, Val l} {P : A → Prop} {Q : B → Prop} (h : a.Gives Rel m P)
    (tr : ∀ {a b c}, Rel a b → Rel b c → Rel a c) (refl : ∀ a, Rel a a)
    (hf : ∀ x m', Rel m m' → P x → (f x).Gives Rel m' Q) : (a.bind f).Gives Rel m Q := by
  induction a generalizing m with
  | ret a => exact hf a m (refl m) h
  | rd l k ih => exact fun m' hr => ih _ (h m' hr) fun x m'' h'' hx => hf x m'' (tr hr h'') hx
  | wr l v k ih =>
    intro m' hr
    obtain ⟨h1, h2⟩ := h m' hr
    exact ⟨h1, ih h2 fun x m'' h'' hx => hf x m'' (tr hr (tr h1 h'')) hx⟩

theorem Gives.steps [DecidableEq L] {Rel : (∀ l, Val l) → (∀ l, Val l) → Prop} (tr : ∀ {a b c}, Rel a b → Rel b c → Rel a c) (refl : ∀ a, Rel a a)
    {c0 c : Cfg Val A} (P : Nat → A → Prop) (h0 : ∀ (i : Nat) (a : Act Val A), c0.threads[i]? = some a → a.Gives Rel c0.mem (P i)) (h : Steps c0 c) :
    Rel c0.mem c.mem ∧ ∀ (i : Nat) (a : Act Val A), c.threads[i]? = some a → a.Gives Rel c.mem (P i) := by
  induction h with
  | refl => exact ⟨refl _, h0⟩
  | @tail c c' hs hstep ih =>
    obtain ⟨r0, I⟩ := ih
    clear hs
    have get_set : ∀ {l : List (Act Val A)} {i j : Nat} {x y z : Act Val A}, l[i]? = some z → (l.set i x)[j]? = some y →
        (i = j ∧ y = x) ∨ (i ≠ j ∧ l[j]? = some y) := by
      intro l i j x y z hz hy
      rw [List.getElem?_set] at hy
      by_cases e : i = j
      · subst e
        left
        rw [if_pos rfl, if_pos (List.getElem?_eq_some_iff.1 hz).1] at hy
        exact ⟨rfl, (Option.some.inj hy).symm⟩
      · rw [if_neg e] at hy; exact .inr ⟨e, hy⟩
    cases hstep with
    | rd i l k hi =>
      refine ⟨r0, ?_⟩
      intro j a h1
      rcases get_set hi h1 with ⟨rfl, rfl⟩ | ⟨hne, h1⟩
      · exact I i _ hi _ (refl _)
      · exact I j a h1
    | wr i l v k hi =>
      obtain ⟨g1, g2⟩ := I i _ hi _ (refl _)
      refine ⟨tr r0 g1, ?_⟩
      intro j a h1
      rcases get_set hi h1 with ⟨rfl, rfl⟩ | ⟨hne, h1⟩
      · exact g2
      · exact Act.Gives.mono @tr (I j a h1) g1

/-! ### Every program ends -/

theorem Steps.trans [DecidableEq L] {a b c : Cfg Val A} (h1 : Steps a b) (h2 : Steps b c) : Steps a c := by
  induction h2 with
  | refl => exact h1
  | tail _ s ih => exact .tail ih s

/-- A thread can be run to its end. -/
theorem Steps.finish [DecidableEq L] {c : Cfg Val A} {i : Nat} {a : Act Val A} (hi : c.threads[i]? = some a) :
    Steps c ⟨(a.run c.mem).1, c.threads.set i (.ret (a.run c.mem).2)⟩ := by
  induction a generalizing c with
  | ret x =>
    have e : c.threads.set i (.ret x) = c.threads := by
      apply List.ext_getElem?
      intro j
      rw [List.getElem?_set]
      by_cases e : i = j
      · subst e; rw [if_pos rfl, if_pos (List.getElem?_eq_some_iff.1 hi).1, hi]
      · rw [if_neg e]
    simp only [Act.run, e]
    exact .refl
  | rd l k ih =>
    refine Steps.trans (.tail (.refl) (.rd i l k hi)) ?_
    have := ih (c.mem l) (c := ⟨c.mem, c.threads.set i (k (c.mem l))⟩) (by
      simp only; rw [List.getElem?_set, if_pos rfl, if_pos (List.getElem?_eq_some_iff.1 hi).1])
    simpa only [List.set_set, Act.run] using this
  | wr l v k ih =>
    refine Steps.trans (.tail (.refl) (.wr i l v k hi)) ?_
    have := ih (c := ⟨Function.update c.mem l v, c.threads.set i k⟩) (by
      simp only; rw [List.getElem?_set, if_pos rfl, if_pos (List.getElem?_eq_some_iff.1 hi).1])
    simpa only [List.set_set, Act.run] using this

theorem Act.bind_assoc {C : Type} (a : Act Val A) (f : A → Act Val B) (g : B → Act Val C) :
    (a.bind f).bind g = a.bind fun x => (f x).bind g := by
  induction a with
  | ret a => rfl
  | rd l k ih => exact congrArg _ (funext fun v => ih v)
  | wr l v k ih => exact congrArg _ ih

theorem Act.bind_ret (a : Act Val A) : a.bind .ret = a := by
  induction a with
  | ret a => rfl
  | rd l k ih => exact congrArg _ (funext fun v => ih v)
  | wr l v k ih => exact congrArg _ ih

/-- What one thread can do while the others rest. -/
inductive Goes [DecidableEq L] : Act Val A → (∀ l, Val l) → Act Val A → (∀ l, Val l) → Prop
  | refl (a m) : Goes a m a m
  | rd {l k m a' m'} : Goes (k (m l)) m a' m' → Goes (.rd l k) m a' m'
  | wr {l v k m a' m'} : Goes k (Function.update m l v) a' m' → Goes (.wr l v k) m a' m'

theorem Goes.first [DecidableEq L] (a : Act Val B) (f : B → Act Val A) (m : ∀ l, Val l) {a' : Act Val A} {m' : ∀ l, Val l}
    (h : Goes (f (a.run m).2) (a.run m).1 a' m') : Goes (a.bind f) m a' m' := by
  induction a generalizing m with
  | ret x => exact h
  | rd l k ih => exact .rd (ih _ _ h)
  | wr l v k ih => exact .wr (ih _ h)

theorem Goes.steps [DecidableEq L] {a a' : Act Val A} {m m' : ∀ l, Val l} (h : Goes a m a' m') {ths : List (Act Val A)} {i : Nat}
    (hi : ths[i]? = some a) : Steps ⟨m, ths⟩ ⟨m', ths.set i a'⟩ := by
  have hlt := (List.getElem?_eq_some_iff.1 hi).1
  induction h generalizing ths with
  | refl a m =>
    have e : ths.set i a = ths := by
      apply List.ext_getElem?
      intro j
      rw [List.getElem?_set]
      by_cases e : i = j
      · subst e; rw [if_pos rfl, if_pos hlt, hi]
      · rw [if_neg e]
    rw [e]
    exact .refl
  | @rd l k m a' m' _ ih =>
    refine Steps.trans (.tail .refl (.rd i l k hi)) ?_
    have := ih (ths := ths.set i (k (m l))) (by rw [List.getElem?_set, if_pos rfl, if_pos hlt]) (by simpa using hlt)
    simpa only [List.set_set] using this
  | @wr l v k m a' m' _ ih =>
    refine Steps.trans (.tail .refl (.wr i l v k hi)) ?_
    have := ih (ths := ths.set i k) (by rw [List.getElem?_set, if_pos rfl, if_pos hlt]) (by simpa using hlt)
    simpa only [List.set_set] using this

end BB.Par
