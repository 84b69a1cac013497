import Verif.Lemmas.StorageLeak

/-! # Library memory that no storage owns any more -/

namespace BB.Own

variable {R : Type}

/-- Block `b` is live and was allocated by the library. -/
def World.Lib (w : World R) (b : Nat) : Prop := ∃ blk, w.heap b = some blk ∧ blk.user = false

/-- Object `x` owns block `b`. -/
def World.OwnsAt (w : World R) (x b : Nat) : Prop := ∃ o, w.obj x = some o ∧ o.own = true ∧ o.data = some b

/-- Block `b` is live, was allocated by the library, and no object owns it: nobody will free it. -/
def World.Unowned (w : World R) (b : Nat) : Prop := w.Lib b ∧ ∀ x, ¬ w.OwnsAt x b

/-- What the accounting of lost blocks needs to know. -/
structure WInv (w : World R) : Prop where
  fresh : ∀ b, w.next ≤ b → w.heap b = none
  lib : ∀ x b, w.OwnsAt x b → w.Lib b
  excl : ∀ x y b, w.OwnsAt x b → w.OwnsAt y b → x = y

theorem Inv.weak {w : World R} (h : Inv w) : WInv w := by
  refine ⟨h.fresh, ?_, ?_⟩
  · rintro x b ⟨o, ex, ho, hd⟩
    have := h.ok x o ex
    unfold OkObj at this
    rw [hd] at this
    obtain ⟨blk, e, -, hu⟩ := this
    exact ⟨blk, e, (hu ho).1⟩
  · rintro x y b ⟨o, ex, ho, hd⟩ ⟨p, ey, hp, hd'⟩
    by_contra hne
    exact h.excl x y o p b hne ex ey ho hd hd'

theorem WInv.next {w : World R} (h : WInv w) : ¬ w.Lib w.next := by
  rintro ⟨blk, e, -⟩
  rw [h.fresh _ (Nat.le_refl _)] at e; cases e

theorem WInv.notAt {w : World R} (h : WInv w) (x : Nat) : ¬ w.OwnsAt x w.next := fun h' => h.next (h.lib x _ h')

theorem ownsAt_set {w : World R} {x z b : Nat} {o : Obj} :
    (w.setObj x o).OwnsAt z b ↔ (z = x ∧ o.own = true ∧ o.data = some b) ∨ (z ≠ x ∧ w.OwnsAt z b) := by
  unfold World.OwnsAt World.setObj
  by_cases hz : z = x
  · subst hz; simp
  · simp [upd_ne _ _ hz, hz]

theorem ownsAt_del {w : World R} {x z b : Nat} : (w.delObj x).OwnsAt z b ↔ z ≠ x ∧ w.OwnsAt z b := by
  unfold World.OwnsAt World.delObj
  by_cases hz : z = x
  · subst hz; simp
  · simp [upd_ne _ _ hz, hz]

theorem lib_alloc {w : World R} (h : WInv w) {cells : Buf R} {user : Bool} {b : Nat} :
    (w.alloc cells user).Lib b ↔ w.Lib b ∨ (user = false ∧ b = w.next) := by
  unfold World.Lib World.alloc
  by_cases hb : b = w.next
  · subst hb
    simp [h.fresh _ (Nat.le_refl _)]
  · simp [upd_ne _ _ hb, hb]

/-- Giving object `x` other members that own nothing: what it owned is lost. -/
theorem unowned_drop {w : World R} (h : WInv w) {x b : Nat} {o : Obj} (ho : ¬ (o.own = true ∧ o.data = some b)) :
    (w.setObj x o).Unowned b ↔ w.Unowned b ∨ w.OwnsAt x b := by
  unfold World.Unowned
  simp only [ownsAt_set, show (w.setObj x o).Lib b ↔ w.Lib b from Iff.rfl]
  constructor
  · rintro ⟨hl, hn⟩
    by_cases hx : w.OwnsAt x b
    · exact Or.inr hx
    · refine Or.inl ⟨hl, fun z hz => hn z (Or.inr ⟨?_, hz⟩)⟩
      intro hc; subst hc; exact hx hz
  · rintro (⟨hl, hn⟩ | hx)
    · refine ⟨hl, fun z hz => ?_⟩
      rcases hz with ⟨-, h'⟩ | ⟨-, h'⟩
      · exact ho h'
      · exact hn z h'
    · refine ⟨h.lib x b hx, fun z hz => ?_⟩
      rcases hz with ⟨-, h'⟩ | ⟨hne, h'⟩
      · exact ho h'
      · exact hne (h.excl z x b h' hx)

/-- Giving object `x` new memory: what it owned is lost, and the new memory is if `x` does not own it. -/
theorem unowned_new {w : World R} (h : WInv w) {x b n : Nat} {own : Bool} {cells : Buf R} :
    ((w.alloc cells false).setObj x ⟨some w.next, n, own⟩).Unowned b ↔
      w.Unowned b ∨ w.OwnsAt x b ∨ (own = false ∧ b = w.next) := by
  unfold World.Unowned
  simp only [ownsAt_set, show ((w.alloc cells false).setObj x ⟨some w.next, n, own⟩).Lib b ↔ (w.alloc cells false).Lib b from Iff.rfl,
    show ∀ z, (w.alloc cells false).OwnsAt z b ↔ w.OwnsAt z b from fun _ => Iff.rfl, lib_alloc h]
  constructor
  · rintro ⟨hl, hn⟩
    rcases hl with hl | ⟨-, hb⟩
    · by_cases hx : w.OwnsAt x b
      · exact Or.inr (Or.inl hx)
      · refine Or.inl ⟨hl, fun z hz => hn z (Or.inr ⟨?_, hz⟩)⟩
        intro hc; subst hc; exact hx hz
    · refine Or.inr (Or.inr ⟨?_, hb⟩)
      cases own with
      | false => rfl
      | true => exact absurd (Or.inl ⟨rfl, rfl, by rw [hb]⟩) (hn x)
  · rintro (⟨hl, hn⟩ | hx | ⟨ho, hb⟩)
    · refine ⟨Or.inl hl, fun z hz => ?_⟩
      rcases hz with ⟨-, -, h'⟩ | ⟨-, h'⟩
      · cases h'; exact h.next hl
      · exact hn z h'
    · have hl := h.lib x b hx
      refine ⟨Or.inl hl, fun z hz => ?_⟩
      rcases hz with ⟨-, -, h'⟩ | ⟨hne, h'⟩
      · cases h'; exact h.next hl
      · exact hne (h.excl z x b h' hx)
    · subst hb
      refine ⟨Or.inr (by simp), fun z hz => ?_⟩
      rcases hz with ⟨-, h', -⟩ | ⟨-, h'⟩
      · rw [ho] at h'; cases h'
      · exact h.notAt z h'

/-- The owner set only changes hands. -/
theorem unowned_congr {w w' : World R} {b : Nat} (hl : w'.Lib b ↔ w.Lib b) (ho : (∃ x, w'.OwnsAt x b) ↔ ∃ x, w.OwnsAt x b) :
    w'.Unowned b ↔ w.Unowned b := by
  unfold World.Unowned
  rw [hl, ← not_exists, ← not_exists, ho]

theorem lib_poke {w : World R} {b b' : Nat} {blk : Block R} (e : w.heap b = some blk) (cs : Buf R) :
    ({ w with heap := upd w.heap b (some { blk with cells := cs }) } : World R).Lib b' ↔ w.Lib b' := by
  unfold World.Lib
  by_cases hb : b' = b
  · subst hb; simp [e]
  · simp [upd_ne _ _ hb]

theorem unowned_poke {w : World R} {b b' : Nat} {blk : Block R} (e : w.heap b = some blk) (cs : Buf R) :
    ({ w with heap := upd w.heap b (some { blk with cells := cs }) } : World R).Unowned b' ↔ w.Unowned b' :=
  unowned_congr (lib_poke e cs) Iff.rfl

theorem unowned_user {w : World R} (h : WInv w) {cells : Buf R} {b : Nat} : (w.alloc cells true).Unowned b ↔ w.Unowned b :=
  unowned_congr (by rw [lib_alloc h]; simp) Iff.rfl

/-- Freeing what object `x` owns and ending its lifetime (or overwriting its members) loses nothing. -/
theorem unowned_release {w w1 : World R} (h : WInv w) {x b : Nat} {o : Obj} (ex : w.obj x = some o) (e : w.release o = .ok w1) :
    ((w1.delObj x).Unowned b ↔ w.Unowned b) ∧ w1.obj = w.obj ∧ w1.next = w.next ∧ WInv (w1.delObj x) := by
  have hdel : ∀ {w' : World R}, WInv w' → WInv (w'.delObj x) := fun {w'} h' =>
    ⟨h'.fresh, fun z b' hz => h'.lib z b' (ownsAt_del.1 hz).2, fun y z b' hy hz => h'.excl y z b' (ownsAt_del.1 hy).2 (ownsAt_del.1 hz).2⟩
  have hnone : (∀ b', ¬ w.OwnsAt x b') → ((w.delObj x).Unowned b ↔ w.Unowned b) := fun hno => by
    refine unowned_congr Iff.rfl ⟨fun ⟨z, hz⟩ => ⟨z, (ownsAt_del.1 hz).2⟩, fun ⟨z, hz⟩ => ⟨z, ownsAt_del.2 ⟨?_, hz⟩⟩⟩
    intro hc; subst hc; exact hno b hz
  unfold World.release at e
  cases hw : o.own with
  | false =>
    simp only [hw] at e
    cases e
    refine ⟨hnone ?_, rfl, rfl, hdel h⟩
    rintro b' ⟨p, ep, hp, -⟩
    rw [ex] at ep; cases ep; rw [hw] at hp; cases hp
  | true =>
    simp only [hw, if_true] at e
    cases hd : o.data with
    | none =>
      rw [hd] at e; cases e
      refine ⟨hnone ?_, rfl, rfl, hdel h⟩
      rintro b' ⟨p, ep, -, hp⟩
      rw [ex] at ep; cases ep; rw [hd] at hp; cases hp
    | some c =>
      have hat : w.OwnsAt x c := ⟨o, ex, hw, hd⟩
      obtain ⟨blk, ec, hu⟩ := h.lib x c hat
      rw [hd] at e
      simp only [World.free, ec, hu] at e
      cases e
      have hlib : ∀ b', World.Lib { w with heap := upd w.heap c none } b' ↔ b' ≠ c ∧ w.Lib b' := by
        intro b'
        unfold World.Lib
        by_cases hb : b' = c
        · subst hb; simp
        · simp [upd_ne _ _ hb, hb]
      refine ⟨?_, rfl, rfl, ?_, ?_, ?_⟩
      · unfold World.Unowned
        simp only [ownsAt_del, show ∀ w' : World R, (w'.delObj x).Lib b ↔ w'.Lib b from fun _ => Iff.rfl, hlib]
        constructor
        · rintro ⟨⟨hne, hl⟩, hn⟩
          refine ⟨hl, fun z hz => hn z ⟨?_, hz⟩⟩
          intro hc; subst hc
          obtain ⟨p, ep, -, hp⟩ := hz
          rw [ex] at ep; cases ep; rw [hd] at hp; cases hp; exact hne rfl
        · rintro ⟨hl, hn⟩
          refine ⟨⟨?_, hl⟩, fun z hz => hn z hz.2⟩
          intro hc; subst hc; exact hn x hat
      · intro b' hb'
        simp only [World.delObj, upd]
        split
        · rfl
        · exact h.fresh b' hb'
      · intro z b' hz
        have hz' := ownsAt_del.1 hz
        have hz2 : w.OwnsAt z b' := hz'.2
        refine (hlib b').2 ⟨?_, h.lib z b' hz2⟩
        intro hc; subst hc
        exact hz'.1 (h.excl z x b' hz2 hat)
      · intro y z b' hy hz
        exact h.excl y z b' (ownsAt_del.1 hy).2 (ownsAt_del.1 hz).2

theorem notAt_of_none {w : World R} {x b : Nat} (hx : w.obj x = none) : ¬ w.OwnsAt x b := by
  rintro ⟨o, e, -⟩; rw [hx] at e; cases e

theorem owns_exchange {w : World R} {x y : Nat} {o p : Obj} {b : Nat} (ex : w.obj x = some o) (ey : w.obj y = some p) :
    (∃ z, ((w.setObj x p).setObj y o).OwnsAt z b) ↔ ∃ z, w.OwnsAt z b := by
  simp only [ownsAt_set]
  constructor
  · rintro ⟨z, ⟨rfl, h⟩ | ⟨-, ⟨rfl, h⟩ | ⟨-, h⟩⟩⟩
    · exact ⟨x, o, ex, h⟩
    · exact ⟨y, p, ey, h⟩
    · exact ⟨z, h⟩
  · rintro ⟨z, q, ez, h⟩
    by_cases hzy : z = y
    · subst hzy
      rw [ey] at ez; cases ez
      by_cases hzx : x = z
      · subst hzx; rw [ex] at ey; cases ey; exact ⟨x, Or.inl ⟨rfl, h⟩⟩
      · exact ⟨x, Or.inr ⟨hzx, Or.inl ⟨rfl, h⟩⟩⟩
    · by_cases hzx : z = x
      · subst hzx
        rw [ex] at ez; cases ez
        exact ⟨y, Or.inl ⟨rfl, h⟩⟩
      · exact ⟨z, Or.inr ⟨hzy, Or.inr ⟨hzx, q, ez, h⟩⟩⟩

/-- An object takes over what another one owned, and that one owns nothing afterwards. -/
theorem owns_handOver {w : World R} {x y : Nat} {o q : Obj} {b : Nat} (hx : w.obj x = none) (ey : w.obj y = some o)
    (hq : ¬ (q.own = true ∧ q.data = some b)) :
    (∃ z, ((w.setObj x o).setObj y q).OwnsAt z b) ↔ ∃ z, w.OwnsAt z b := by
  have hxy : x ≠ y := by intro hc; subst hc; rw [hx] at ey; cases ey
  simp only [ownsAt_set]
  constructor
  · rintro ⟨z, ⟨-, h⟩ | ⟨-, ⟨-, h⟩ | ⟨-, h⟩⟩⟩
    · exact absurd h hq
    · exact ⟨y, o, ey, h⟩
    · exact ⟨z, h⟩
  · rintro ⟨z, p, ez, h⟩
    by_cases hzy : z = y
    · subst hzy
      rw [ey] at ez; cases ez
      exact ⟨x, Or.inr ⟨hxy, Or.inl ⟨rfl, h⟩⟩⟩
    · have hzx : z ≠ x := by intro hc; subst hc; rw [hx] at ez; cases ez
      exact ⟨z, Or.inr ⟨hzy, Or.inr ⟨hzx, p, ez, h⟩⟩⟩

/-- The block an operation on variable-size storages loses: the memory of a copy of an object that does
not own its memory, and the old memory of an owner that is loaded into. -/
def LostBy (w : World R) (op : Op R) (b : Nat) : Prop :=
  match op with
  | .copy _ y => b = w.next ∧ ∃ o, w.obj y = some o ∧ o.own = false
  | .load x _ => w.OwnsAt x b
  | _ => False

/-- Exactly the blocks an operation loses become unowned; none comes back. -/
theorem step_unowned {w w' : World R} (h : Inv w) {op : Op R} (e : step w op = .ok w') (b : Nat) :
    w'.Unowned b ↔ w.Unowned b ∨ LostBy w op b := by
  have hw := h.weak
  have ssd : ∀ (w1 : World R) (x : Nat) (o : Obj), w1.setObj x o = (w1.delObj x).setObj x o := by
    intro w1 x o
    simp only [World.setObj, World.delObj]
    congr 1
    funext i
    by_cases hi : i = x
    · subst hi; simp
    · simp [upd_ne _ _ hi]
  have ssn : ∀ (w1 : World R) (x : Nat) (cells : Buf R) (o : Obj), (w1.alloc cells false).setObj x o = ((w1.delObj x).alloc cells false).setObj x o := by
    intro w1 x cells o
    simp only [World.setObj, World.delObj, World.alloc]
    congr 1
    funext i
    by_cases hi : i = x
    · subst hi; simp
    · simp [upd_ne _ _ hi]
  cases op with
  | userAlloc cells => cases e; simpa [LostBy] using unowned_user hw
  | dflt x =>
    obtain ⟨hx, rfl⟩ := place_eq e
    rw [unowned_drop hw (by simp)]
    simp [LostBy, notAt_of_none hx]
  | size x n =>
    obtain ⟨hx, rfl⟩ := place_eq e
    rw [unowned_new hw]
    simp [LostBy, notAt_of_none (show w.obj x = none from hx)]
  | init x vs =>
    obtain ⟨hx, rfl⟩ := place_eq e
    rw [unowned_new hw]
    simp [LostBy, notAt_of_none (show w.obj x = none from hx)]
  | copy x y =>
    obtain ⟨o, e1, e⟩ := bind_eq_ok e
    obtain ⟨cs, e2, e⟩ := bind_eq_ok e
    obtain ⟨hx, rfl⟩ := place_eq e
    rw [unowned_new hw]
    simp [LostBy, notAt_of_none (show w.obj x = none from hx), obj_get e1, and_comm]
  | move x y =>
    obtain ⟨o, e1, e⟩ := bind_eq_ok e
    obtain ⟨w1, e2, e⟩ := bind_eq_ok e
    obtain ⟨hx, rfl⟩ := place_eq e2
    cases e
    simp only [LostBy, or_false]
    exact unowned_congr Iff.rfl (owns_handOver hx (obj_get e1) (by simp))
  | conv x y f =>
    obtain ⟨o, e1, e⟩ := bind_eq_ok e
    obtain ⟨cs, e2, e⟩ := bind_eq_ok e
    obtain ⟨hx, rfl⟩ := place_eq e
    rw [unowned_new hw]
    simp [LostBy, notAt_of_none (show w.obj x = none from hx)]
  | proxy x c n =>
    obtain ⟨hx, rfl⟩ := place_eq e
    rw [unowned_drop hw (by simp)]
    simp [LostBy, notAt_of_none hx]
  | dtor x =>
    obtain ⟨o, e1, e⟩ := bind_eq_ok e
    obtain ⟨w1, e2, e⟩ := bind_eq_ok e
    cases e
    simpa [LostBy] using (unowned_release hw (obj_get e1) e2).1
  | resize x n =>
    obtain ⟨o, e1, e⟩ := bind_eq_ok e
    by_cases hs : o.size = n
    · simp only [hs, if_true] at e
      cases e; simp [LostBy]
    · simp only [hs, if_false] at e
      cases hown : o.own with
      | false => simp [hown] at e
      | true =>
        simp only [hown, not_true, if_false] at e
        obtain ⟨w1, e2, e⟩ := bind_eq_ok e
        cases e
        obtain ⟨hu, -, hn, hi⟩ := unowned_release (b := b) hw (obj_get e1) (w1 := w1) (by simp [World.release, hown, e2])
        rw [ssn]
        refine (unowned_new hi).trans ?_
        rw [hu]
        simp [LostBy, notAt_of_none (show (w1.delObj x).obj x = none by simp [World.delObj])]
  | assign x y =>
    obtain ⟨o, e1, e⟩ := bind_eq_ok e
    obtain ⟨p, e2, e⟩ := bind_eq_ok e
    by_cases hxy : x = y
    · simp only [hxy, if_true] at e
      cases e; simp [LostBy]
    · simp only [hxy, if_false] at e
      obtain ⟨w1, e3, e⟩ := bind_eq_ok e
      obtain ⟨hu, -, hn, hi⟩ := unowned_release (b := b) hw (obj_get e1) e3
      have hno : ∀ b, ¬ (w1.delObj x).OwnsAt x b := fun b => notAt_of_none (by simp [World.delObj])
      cases hown : p.own with
      | true =>
        simp only [hown, if_true] at e
        obtain ⟨cs, e4, e⟩ := bind_eq_ok e
        cases e
        rw [ssn]
        refine (unowned_new hi).trans ?_
        rw [hu]
        simp [LostBy, hno]
      | false =>
        simp [hown] at e
        cases e
        rw [ssd, unowned_drop hi (by simp), hu]
        simp [LostBy, hno]
  | moveAssign x y =>
    obtain ⟨o, e1, e⟩ := bind_eq_ok e
    obtain ⟨p, e2, e⟩ := bind_eq_ok e
    obtain ⟨w1, e3, e⟩ := bind_eq_ok e
    cases e
    obtain ⟨hu, hob, hn, hi⟩ := unowned_release (b := b) hw (obj_get e1) e3
    simp only [LostBy, or_false]
    by_cases hxy : x = y
    · subst hxy
      rw [show (w1.setObj x p).setObj x ⟨none, 0, false⟩ = (w1.delObj x).setObj x ⟨none, 0, false⟩ by
        simp only [World.setObj, World.delObj]
        congr 1
        funext i
        by_cases hi : i = x
        · subst hi; simp
        · simp [upd_ne _ _ hi]]
      rw [unowned_drop hi (by simp), hu]
      simp [notAt_of_none (show (w1.delObj x).obj x = none by simp [World.delObj])]
    · rw [ssd, ← hu]
      have ey : (w1.delObj x).obj y = some p := by
        simp only [World.delObj]; rw [upd_ne _ _ (Ne.symm hxy), hob]; exact obj_get e2
      rw [show ((w1.setObj x p).delObj y).setObj y ⟨none, 0, false⟩ = ((w1.delObj x).setObj x p).setObj y ⟨none, 0, false⟩ by
        rw [← ssd, ← ssd]]
      exact unowned_congr Iff.rfl (owns_handOver (by simp [World.delObj]) ey (by simp))
  | swap x y =>
    obtain ⟨o, e1, e⟩ := bind_eq_ok e
    obtain ⟨p, e2, e⟩ := bind_eq_ok e
    cases e
    simp only [LostBy, or_false]
    exact unowned_congr Iff.rfl (owns_exchange (obj_get e1) (obj_get e2))
  | write x i v =>
    obtain ⟨o, e1, e⟩ := bind_eq_ok e
    cases hd : o.data with
    | none => simp [hd] at e
    | some c =>
      cases hb : w.heap c with
      | none => simp [hd, hb] at e
      | some blk =>
        simp only [hd, hb] at e
        split at e
        · cases e; simpa [LostBy] using unowned_poke hb _
        · cases e
  | fill x v =>
    obtain ⟨o, e1, e⟩ := bind_eq_ok e
    cases hd : o.data with
    | none =>
      simp only [hd] at e
      split at e
      · cases e; simp [LostBy]
      · cases e
    | some c =>
      cases hb : w.heap c with
      | none => simp [hd, hb] at e
      | some blk =>
        simp only [hd, hb] at e
        split at e
        · cases e; simpa [LostBy] using unowned_poke hb _
        · cases e
  | load x vs =>
    obtain ⟨o, e1, e⟩ := bind_eq_ok e
    cases e
    rw [unowned_new hw]
    simp [LostBy]

end BB.Own
