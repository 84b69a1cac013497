import Verif.SpecFixed
import Verif.Lemmas.StorageLost

/-! # Ownership invariant and meaning of fixed-size storages -/

namespace BB.Own

variable {R : Type} {N : Nat}

/-- The members of a live fixed-size storage are consistent with the heap. -/
def FOk (N : Nat) (w : World R) (o : Obj) : Prop :=
  ∃ b, o.data = some b ∧ o.size = N ∧ b < w.next ∧ (∀ blk, w.heap b = some blk → N ≤ blk.cells.length) ∧
    (o.own = true → ∃ blk, w.heap b = some blk ∧ blk.user = false ∧ blk.cells.length = N)

structure FInv (N : Nat) (w : World R) : Prop where
  fresh : ∀ b, w.next ≤ b → w.heap b = none
  ok : ∀ x o, w.obj x = some o → FOk N w o
  excl : ∀ x y b, w.OwnsAt x b → w.OwnsAt y b → x = y

theorem FInv.init : FInv N (World.init : World R) :=
  ⟨fun _ _ => rfl, fun _ _ h => (nomatch h), fun _ _ _ h => by obtain ⟨o, e, -⟩ := h; cases e⟩

theorem FInv.weak {w : World R} (h : FInv N w) : WInv w := by
  refine ⟨h.fresh, ?_, h.excl⟩
  rintro x b ⟨o, ex, ho, hd⟩
  obtain ⟨b', hb, -, -, -, hu⟩ := h.ok x o ex
  rw [hd] at hb; cases hb
  obtain ⟨blk, e, hu, -⟩ := hu ho
  exact ⟨blk, e, hu⟩

theorem FInv.alloc {w : World R} (h : FInv N w) (cells : Buf R) (user : Bool) : FInv N (w.alloc cells user) := by
  refine ⟨?_, ?_, h.excl⟩
  · intro b hb
    simp only [World.alloc] at hb ⊢
    rw [upd_ne _ _ (by omega)]
    exact h.fresh b (by omega)
  · intro x o ex
    obtain ⟨b, h1, h2, h3, h4, h5⟩ := h.ok x o ex
    have e : (w.alloc cells user).heap b = w.heap b := by
      simp only [World.alloc]; rw [upd_ne _ _ (by omega)]
    exact ⟨b, h1, h2, Nat.lt_succ_of_lt h3, by rw [e]; exact h4, by rw [e]; exact h5⟩

theorem FInv.set {w : World R} (h : FInv N w) {x : Nat} {o : Obj} (ho : FOk N w o)
    (hx : ∀ b, o.own = true → o.data = some b → ∀ z, z ≠ x → ¬ w.OwnsAt z b) : FInv N (w.setObj x o) := by
  refine ⟨h.fresh, ?_, ?_⟩
  · intro z p ez
    by_cases hz : z = x
    · subst hz; simp [World.setObj] at ez; subst ez; exact ho
    · simp only [World.setObj] at ez
      rw [upd_ne _ _ hz] at ez
      exact h.ok z p ez
  · intro y z b hy hz
    rw [ownsAt_set] at hy hz
    rcases hy with ⟨rfl, h1, h2⟩ | ⟨h1, h2⟩ <;> rcases hz with ⟨rfl, h3, h4⟩ | ⟨h3, h4⟩
    · rfl
    · exact absurd h4 (hx b h1 h2 z h3)
    · exact absurd h2 (hx b h3 h4 y h1)
    · exact h.excl y z b h2 h4

theorem FInv.del {w : World R} (h : FInv N w) (x : Nat) : FInv N (w.delObj x) := by
  refine ⟨h.fresh, ?_, fun y z b hy hz => h.excl y z b (ownsAt_del.1 hy).2 (ownsAt_del.1 hz).2⟩
  intro z p ez
  by_cases hz : z = x
  · subst hz; simp [World.delObj] at ez
  · simp only [World.delObj] at ez
    rw [upd_ne _ _ hz] at ez
    exact h.ok z p ez

theorem FInv.setNew {w : World R} (h : FInv N w) (x : Nat) {cells : Buf R} (hl : cells.length = N) :
    FInv N ((w.alloc cells false).setObj x ⟨some w.next, N, true⟩) := by
  refine (h.alloc cells false).set ⟨w.next, rfl, rfl, Nat.lt_succ_self _, ?_, ?_⟩ ?_
  · intro blk e
    simp [World.alloc] at e; subst e; simp [hl]
  · intro _
    exact ⟨_, by simp [World.alloc]; rfl, rfl, hl⟩
  · intro b _ hb z _ hz
    cases hb
    exact h.weak.notAt z hz

theorem FInv.poke {w : World R} (h : FInv N w) {b : Nat} {blk : Block R} (e : w.heap b = some blk) {cs : Buf R}
    (hl : cs.length = blk.cells.length) : FInv N { w with heap := upd w.heap b (some { blk with cells := cs }) } := by
  refine ⟨?_, ?_, h.excl⟩
  · intro b' hb'
    have : b' ≠ b := by intro hc; subst hc; rw [h.fresh _ hb'] at e; cases e
    simp only
    rw [upd_ne _ _ this]; exact h.fresh b' hb'
  · intro x o ex
    obtain ⟨b', h1, h2, h3, h4, h5⟩ := h.ok x o ex
    refine ⟨b', h1, h2, h3, ?_, ?_⟩
    · intro blk' e'
      by_cases hb : b' = b
      · subst hb; simp at e'; subst e'; simp only [hl]; exact h4 blk e
      · simp only at e'; rw [upd_ne _ _ hb] at e'; exact h4 blk' e'
    · intro ho
      obtain ⟨blk', e', hu, hl'⟩ := h5 ho
      by_cases hb : b' = b
      · subst hb; rw [e] at e'; cases e'
        exact ⟨{ blk with cells := cs }, by simp, hu, by simp [hl, hl']⟩
      · exact ⟨blk', by simp only; rw [upd_ne _ _ hb]; exact e', hu, hl'⟩

/-- Freeing what `x` owns and ending its lifetime. -/
theorem FInv.release {w : World R} (h : FInv N w) {x : Nat} {o : Obj} (ex : w.obj x = some o) :
    ∃ w1, w.release o = .ok w1 ∧ w1.obj = w.obj ∧ w1.next = w.next ∧ FInv N (w1.delObj x) ∧
      (∀ b, ¬ w.OwnsAt x b → w1.heap b = w.heap b) := by
  cases hw : o.own with
  | false => exact ⟨w, by simp [World.release, hw], rfl, rfl, h.del x, fun _ _ => rfl⟩
  | true =>
    obtain ⟨b, h1, h2, h3, h4, h5⟩ := h.ok x o ex
    obtain ⟨blk, e, hu, hl⟩ := h5 hw
    have hat : w.OwnsAt x b := ⟨o, ex, hw, h1⟩
    refine ⟨{ w with heap := upd w.heap b none }, by simp [World.release, hw, World.free, h1, e, hu], rfl, rfl, ⟨?_, ?_, ?_⟩, ?_⟩
    · intro b' hb'
      simp only [World.delObj, upd]
      split
      · rfl
      · exact h.fresh b' hb'
    · intro z p ez
      by_cases hz : z = x
      · subst hz; simp [World.delObj] at ez
      · simp only [World.delObj] at ez
        rw [upd_ne _ _ hz] at ez
        obtain ⟨b', g1, g2, g3, g4, g5⟩ := h.ok z p ez
        refine ⟨b', g1, g2, g3, ?_, ?_⟩
        · intro blk' e'
          by_cases hb : b' = b
          · subst hb; simp [World.delObj] at e'
          · simp only [World.delObj] at e'; rw [upd_ne _ _ hb] at e'; exact g4 blk' e'
        · intro hp
          obtain ⟨blk', e', hu'⟩ := g5 hp
          have hb : b' ≠ b := by
            intro hc; subst hc
            exact hz (h.excl z x b' ⟨p, ez, hp, g1⟩ hat)
          exact ⟨blk', by simp only [World.delObj]; rw [upd_ne _ _ hb]; exact e', hu'⟩
    · exact fun y z b' hy hz => h.excl y z b' (ownsAt_del.1 hy).2 (ownsAt_del.1 hz).2
    · intro b' hb'
      simp only
      rw [upd_ne]
      intro hc; subst hc; exact hb' hat

/-- The elements of a storage that may be read. -/
theorem FInv.cells {w : World R} (h : FInv N w) {x : Nat} (hx : w.usable x) :
    ∃ o b blk, w.obj x = some o ∧ o.data = some b ∧ w.heap b = some blk ∧ N ≤ blk.cells.length ∧ o.size = N ∧
      w.cells o = .ok (blk.cells.take N) := by
  obtain ⟨o, ex, ho⟩ := hx
  obtain ⟨b, h1, h2, h3, h4, h5⟩ := h.ok x o ex
  have : ∃ blk, w.heap b = some blk := by
    rcases ho with ho | ⟨b', blk, e1, e2, -⟩
    · obtain ⟨blk, e, -⟩ := h5 ho; exact ⟨blk, e⟩
    · rw [h1] at e1; cases e1; exact ⟨blk, e2⟩
  obtain ⟨blk, e⟩ := this
  exact ⟨o, b, blk, ex, h1, e, h4 blk e, h2, by simp [World.cells, h1, e, h2, h4 blk e]⟩

theorem World.owner.usable {w : World R} {x : Nat} (h : w.owner x) : w.usable x := by
  obtain ⟨o, e, ho⟩ := h
  exact ⟨o, e, Or.inl ho⟩

/-- The block a constructor that throws loses. -/
def FLostBy (N : Nat) (w : World R) (op : FOp R) (b : Nat) : Prop := FixedSpec.badConstructor N op = true ∧ b = w.next

theorem set_own {w : World R} {x : Nat} {o : Obj} (ex : w.obj x = some o) (ho : o.own = true) : w.setObj x { o with own := true } = w := by
  have : ({ o with own := true } : Obj) = o := by cases o; simp at ho; simp [ho]
  rw [this]
  simp only [World.setObj]
  congr 1
  funext i
  by_cases hi : i = x
  · subst hi; simp [ex]
  · simp [upd_ne _ _ hi]

theorem poke_ok {w : World R} {o : Obj} {b : Nat} {blk : Block R} (hd : o.data = some b) (e : w.heap b = some blk) {cs : Buf R}
    (hl : cs.length ≤ blk.cells.length) :
    w.poke o cs = .ok { w with heap := upd w.heap b (some { blk with cells := cs ++ blk.cells.drop cs.length }) } := by
  simp [World.poke, hd, e, hl]

/-- Correct use has no memory error, keeps the invariant, and loses exactly what constructors that throw
allocated. -/
theorem fstep_inv {w : World R} (h : FInv N w) {op : FOp R} (ha : FAdm N w op) :
    ∃ w' t, fstep N w op = .ok (w', t) ∧ FInv N w' ∧ ∀ b, w'.Unowned b ↔ w.Unowned b ∨ FLostBy N w op b := by
  have hw := h.weak
  have new : ∀ (x : Nat) (cells : Buf R), w.obj x = none → cells.length = N → ∀ b,
      (((w.alloc cells false).setObj x ⟨some w.next, N, true⟩).Unowned b ↔ w.Unowned b ∨ False) := by
    intro x cells hx _ b
    rw [unowned_new hw]
    simp [notAt_of_none hx]
  have bad : ∀ b, (w.alloc (Buf.alloc N) false).Unowned b ↔ w.Unowned b ∨ b = w.next := by
    intro b
    unfold World.Unowned
    simp only [lib_alloc hw, show ∀ z, (w.alloc (Buf.alloc N) false).OwnsAt z b ↔ w.OwnsAt z b from fun _ => Iff.rfl]
    constructor
    · rintro ⟨hl | ⟨-, hb⟩, hn⟩
      · exact Or.inl ⟨hl, hn⟩
      · exact Or.inr hb
    · rintro (⟨hl, hn⟩ | hb)
      · exact ⟨Or.inl hl, hn⟩
      · subst hb; exact ⟨Or.inr (by simp), fun z => hw.notAt z⟩
  have exch : ∀ x y, w.obj x ≠ none → w.obj y ≠ none → ∃ o p, w.obj x = some o ∧ w.obj y = some p ∧
      FInv N ((w.setObj x p).setObj y o) ∧ ∀ b, ((w.setObj x p).setObj y o).Unowned b ↔ w.Unowned b := by
    intro x y hx hy
    obtain ⟨o, ex⟩ := Option.ne_none_iff_exists'.1 hx
    obtain ⟨p, ey⟩ := Option.ne_none_iff_exists'.1 hy
    refine ⟨o, p, ex, ey, ⟨h.fresh, ?_, ?_⟩, fun b => unowned_congr Iff.rfl (owns_exchange ex ey)⟩
    · intro z q ez
      by_cases hzy : z = y
      · subst hzy; simp [World.setObj] at ez; subst ez; exact h.ok x o ex
      · by_cases hzx : z = x
        · subst hzx; simp [World.setObj, upd_ne _ _ hzy] at ez; subst ez; exact h.ok y p ey
        · simp [World.setObj, upd_ne _ _ hzy, upd_ne _ _ hzx] at ez; exact h.ok z q ez
    · intro y' z b hy' hz
      have tr : ∀ z, ((w.setObj x p).setObj y o).OwnsAt z b → w.OwnsAt (if z = y then x else if z = x then y else z) b := by
        intro z hz
        simp only [ownsAt_set] at hz
        rcases hz with ⟨rfl, h1⟩ | ⟨hzy, ⟨rfl, h1⟩ | ⟨hzx, h1⟩⟩
        · simp only [if_true]; exact ⟨o, ex, h1⟩
        · simp only [if_neg hzy, if_true]; exact ⟨p, ey, h1⟩
        · simp only [if_neg hzy, if_neg hzx]; exact h1
      have := h.excl _ _ b (tr y' hy') (tr z hz)
      split at this <;> split at this <;> (try split at this) <;> (try split at this) <;> simp_all
  cases op with
  | userAlloc cells => exact ⟨_, _, rfl, h.alloc _ _, fun b => by simpa [FLostBy, FixedSpec.badConstructor] using unowned_user hw⟩
  | dflt x =>
    have ha : w.obj x = none := ha
    have hl : (Buf.alloc N : Buf R).length = N := by simp [Buf.alloc]
    refine ⟨_, none, ?_, h.setNew x hl, fun b => by simpa [FLostBy, FixedSpec.badConstructor] using new x _ ha hl b⟩
    simp only [fstep]; rw [place_ok _ (by exact ha)]; rfl
  | init x vs =>
    have ha : w.obj x = none := ha
    by_cases hv : vs.length = N
    · have hl : (vs.map some : Buf R).length = N := by simp [hv]
      refine ⟨_, none, ?_, h.setNew x hl, fun b => by simpa [FLostBy, FixedSpec.badConstructor, hv] using new x _ ha hl b⟩
      simp only [fstep, hv, ne_eq, not_true, if_false]; rw [place_ok _ (by exact ha)]; rfl
    · refine ⟨w.alloc (Buf.alloc N) false, _, by simp only [fstep, ne_eq, hv, not_false_iff, if_true]; rfl, h.alloc _ _, fun b => ?_⟩
      rw [bad b]; simp [FLostBy, FixedSpec.badConstructor, hv]
  | conv x cs =>
    have ha : w.obj x = none := ha
    by_cases hv : cs.length = N
    · refine ⟨_, none, ?_, h.setNew x hv, fun b => by simpa [FLostBy, FixedSpec.badConstructor, hv] using new x _ ha hv b⟩
      simp only [fstep, hv, ne_eq, not_true, if_false]; rw [place_ok _ (by exact ha)]; rfl
    · refine ⟨w.alloc (Buf.alloc N) false, _, by simp only [fstep, ne_eq, hv, not_false_iff, if_true]; rfl, h.alloc _ _, fun b => ?_⟩
      rw [bad b]; simp [FLostBy, FixedSpec.badConstructor, hv]
  | copy x y =>
    obtain ⟨hx, hy⟩ := ha
    obtain ⟨o, b, blk, ey, hd, e, hl, hs, hc⟩ := h.cells hy
    have hl' : (blk.cells.take N).length = N := by simp [hl]
    refine ⟨_, none, ?_, h.setNew x hl', fun b => by simpa [FLostBy, FixedSpec.badConstructor] using new x _ hx hl' b⟩
    simp only [fstep, get_ok ey, bind_ok', hc]; rw [place_ok _ (by exact hx)]; rfl
  | move x y =>
    obtain ⟨hx, hy⟩ := ha
    obtain ⟨o, ey⟩ := Option.ne_none_iff_exists'.1 hy
    have hxy : x ≠ y := by intro hc; subst hc; rw [hx] at ey; cases ey
    refine ⟨(w.setObj x o).setObj y { o with own := false }, none, ?_, ⟨h.fresh, ?_, ?_⟩, fun b => ?_⟩
    · simp only [fstep, get_ok ey, bind_ok', place_ok _ hx]; rfl
    · intro z q ez
      by_cases hzy : z = y
      · subst hzy; simp [World.setObj] at ez; subst ez
        obtain ⟨b, h1, h2, h3, h4, h5⟩ := h.ok z o ey
        exact ⟨b, h1, h2, h3, h4, fun h => by cases h⟩
      · by_cases hzx : z = x
        · subst hzx; simp [World.setObj, upd_ne _ _ hzy] at ez; subst ez; exact h.ok y o ey
        · simp [World.setObj, upd_ne _ _ hzy, upd_ne _ _ hzx] at ez; exact h.ok z q ez
    · intro y' z b hy' hz
      simp only [ownsAt_set] at hy' hz
      rcases hy' with ⟨-, h1, -⟩ | ⟨h0, ⟨rfl, h1⟩ | ⟨h1, h2⟩⟩
      · cases h1
      · rcases hz with ⟨-, g1, -⟩ | ⟨g0, ⟨rfl, g1⟩ | ⟨g1, g2⟩⟩
        · cases g1
        · rfl
        · exact absurd (h.excl z y b g2 ⟨o, ey, h1⟩) g0
      · rcases hz with ⟨-, g1, -⟩ | ⟨g0, ⟨rfl, g1⟩ | ⟨g1, g2⟩⟩
        · cases g1
        · exact absurd (h.excl y' y b h2 ⟨o, ey, g1⟩) h0
        · exact h.excl y' z b h2 g2
    · simp only [FLostBy, FixedSpec.badConstructor]
      simpa using unowned_congr (w := w) (w' := (w.setObj x o).setObj y { o with own := false }) (b := b) Iff.rfl (owns_handOver hx ey (by simp))
  | proxy x b =>
    obtain ⟨hx, blk, e, hu, hl⟩ := ha
    refine ⟨w.setObj x ⟨some b, N, false⟩, none, by simp only [fstep, place_ok _ hx]; rfl, h.set ⟨b, rfl, rfl, ?_, ?_, fun h => by cases h⟩ (fun _ h => by cases h), fun b' => ?_⟩
    · by_contra hc
      rw [h.fresh b (by omega)] at e; cases e
    · intro blk' e'; rw [e] at e'; cases e'; exact hl
    · rw [unowned_drop hw (by simp)]
      simp [FLostBy, FixedSpec.badConstructor, notAt_of_none hx]
  | dtor x =>
    obtain ⟨o, ex⟩ := Option.ne_none_iff_exists'.1 ha
    obtain ⟨w1, e, -, -, hi, -⟩ := h.release ex
    refine ⟨w1.delObj x, none, by simp only [fstep, get_ok ex, bind_ok', e]; rfl, hi, fun b => ?_⟩
    simpa [FLostBy, FixedSpec.badConstructor] using (unowned_release hw ex e).1
  | assign x y =>
    obtain ⟨hx, hy⟩ := ha
    obtain ⟨o, b, blk, ex, hd, e, hl, hs, hc⟩ := h.cells hx.usable
    obtain ⟨p, b', blk', ey, hd', e', hl', hs', hc'⟩ := h.cells hy
    by_cases hxy : x = y
    · refine ⟨w, none, by simp only [fstep, get_ok ex, get_ok ey, bind_ok', hxy, if_true]; rfl, h, fun b => by simp [FLostBy, FixedSpec.badConstructor]⟩
    · have hle : (blk'.cells.take N).length ≤ blk.cells.length := by simp [hl', hl]
      have ho : o.own = true := by
        obtain ⟨q, eq, hq⟩ := hx; rw [ex] at eq; cases eq; exact hq
      have hp := poke_ok hd e hle
      have hso : ∀ hp, ({ w with heap := hp } : World R).setObj x { o with own := true } = { w with heap := hp } := fun hp => set_own ex ho
      refine ⟨_, none, by simp only [fstep, get_ok ex, get_ok ey, bind_ok', if_neg hxy, hc', hp]; rfl, ?_, fun b => ?_⟩
      · rw [hso]; exact h.poke e (by simp [hl']; omega)
      · rw [hso]; simpa [FLostBy, FixedSpec.badConstructor] using unowned_poke e _
  | moveAssign x y =>
    obtain ⟨o, p, ex, ey, hi, hu⟩ := exch x y ha.1 ha.2
    exact ⟨_, none, by simp only [fstep, get_ok ex, get_ok ey, bind_ok']; rfl, hi, fun b => by simpa [FLostBy, FixedSpec.badConstructor] using hu b⟩
  | swap x y =>
    obtain ⟨o, p, ex, ey, hi, hu⟩ := exch x y ha.1 ha.2
    exact ⟨_, none, by simp only [fstep, get_ok ex, get_ok ey, bind_ok']; rfl, hi, fun b => by simpa [FLostBy, FixedSpec.badConstructor] using hu b⟩
  | write x i v =>
    obtain ⟨hx, hi⟩ := ha
    obtain ⟨o, b, blk, ex, hd, e, hl, hs, hc⟩ := h.cells hx
    refine ⟨{ w with heap := upd w.heap b (some { blk with cells := blk.cells.set i (some v) }) }, none, ?_, h.poke e (by simp), fun b => ?_⟩
    · simp only [fstep, step, get_ok ex, bind_ok', hd, e]
      rw [if_pos ⟨by omega, by omega⟩]; rfl
    · simpa [FLostBy, FixedSpec.badConstructor] using unowned_poke e _
  | load x vs =>
    obtain ⟨o, b, blk, ex, hd, e, hl, hs, hc⟩ := h.cells (World.owner.usable ha)
    have hle : (((vs.take N).map some : Buf R)).length ≤ blk.cells.length := by simp; omega
    have ho : o.own = true := by
      obtain ⟨q, eq, hq⟩ := ha; rw [ex] at eq; cases eq; exact hq
    have hp := poke_ok hd e hle
    have hso : ∀ hp, ({ w with heap := hp } : World R).setObj x { o with own := true } = { w with heap := hp } := fun hp => set_own ex ho
    by_cases hv : vs.length < N
    · refine ⟨_, _, by simp only [fstep, get_ok ex, bind_ok', hp, if_pos hv]; rfl, h.poke e (by simp at hle ⊢; omega), fun b => ?_⟩
      simpa [FLostBy, FixedSpec.badConstructor] using unowned_poke e _
    · refine ⟨_, _, by simp only [fstep, get_ok ex, bind_ok', hp, if_neg hv]; rfl, ?_, fun b => ?_⟩
      · rw [hso]; exact h.poke e (by simp at hle ⊢; omega)
      · rw [hso]; simpa [FLostBy, FixedSpec.badConstructor] using unowned_poke e _

end BB.Own
