import Verif.Props.Storage
import Verif.Model.Dense
import Verif.Lemmas.Dense

/-!
# Storages as values

Refinement of the storage state machine (`Verif.Model.Storage`) to a map from names to arrays: every
operation on storages that own their memory behaves like an operation on values.
-/
namespace BB.Own

variable {R : Type}

/-- What a name stands for. -/
inductive Slot (R : Type) where
  | gone
  | held (d : Buf R)
  | hollow

/-- Object `x` of the world is what the slot says. -/
def SlotOk (w : World R) (x : Nat) : Slot R → Prop
  | .gone => w.obj x = none
  | .held d => ∃ o, w.obj x = some o ∧ o.own = true ∧ w.cells o = .ok d
  | .hollow => w.obj x = some ⟨none, 0, false⟩

/-- The world represents the map of slots. -/
def Rep (w : World R) (σ : Nat → Slot R) : Prop := ReachFrugal w ∧ ∀ x, SlotOk w x (σ x)

theorem ReachFrugal.reach {w : World R} (h : ReachFrugal w) : Reach w := h.both.1

theorem obj_of_rep {w : World R} {σ : Nat → Slot R} (h : Rep w σ) {x : Nat} :
    (σ x = .gone → w.obj x = none) ∧ (σ x = .hollow → w.obj x = some ⟨none, 0, false⟩) := by
  have := h.2 x
  constructor <;> intro e <;> rw [e] at this <;> exact this

theorem Rep.live {w : World R} {σ : Nat → Slot R} (h : Rep w σ) {x : Nat} (hx : σ x ≠ .gone) :
    ∃ o, w.obj x = some o := by
  have := h.2 x
  cases e : σ x with
  | gone => exact absurd e hx
  | held d => rw [e] at this; obtain ⟨o, ho, -⟩ := this; exact ⟨o, ho⟩
  | hollow => rw [e] at this; exact ⟨_, this⟩

theorem Rep.held {w : World R} {σ : Nat → Slot R} (h : Rep w σ) {x : Nat} {d : Buf R} (hx : σ x = .held d) :
    ∃ o, w.obj x = some o ∧ o.own = true ∧ w.cells o = .ok d := by
  have := h.2 x; rw [hx] at this; exact this

/-- Objects an operation does not touch keep their members. -/
theorem step_obj {w w' : World R} {op : Op R} {x : Nat} (ht : x ∉ op.touches) (e : step w op = .ok w')
    (hi : Inv w) : w'.obj x = w.obj x := by
  have rel : ∀ {y : Nat} {o : Obj} {w1 : World R}, w.obj y = some o → w.release o = .ok w1 → w1.obj = w.obj := by
    intro y o w1 hy e
    unfold World.release at e
    cases hw : o.own with
    | false => simp only [hw] at e; cases e; rfl
    | true =>
      obtain ⟨w2, e', e1, -⟩ := free_ok hi hy hw
      simp only [hw, if_true, e'] at e
      cases e; exact e1
  cases op with
  | userAlloc cells => cases e; rfl
  | dflt y => obtain ⟨-, rfl⟩ := place_eq e; simp [Op.touches] at ht; simp [World.setObj, upd_ne _ _ ht]
  | size y n => obtain ⟨-, rfl⟩ := place_eq e; simp [Op.touches] at ht; simp [World.setObj, World.alloc, upd_ne _ _ ht]
  | init y n => obtain ⟨-, rfl⟩ := place_eq e; simp [Op.touches] at ht; simp [World.setObj, World.alloc, upd_ne _ _ ht]
  | proxy y b n => obtain ⟨-, rfl⟩ := place_eq e; simp [Op.touches] at ht; simp [World.setObj, upd_ne _ _ ht]
  | copy y z =>
    obtain ⟨p, e1, e⟩ := bind_eq_ok e
    obtain ⟨cs, e2, e⟩ := bind_eq_ok e
    obtain ⟨-, rfl⟩ := place_eq e
    simp [Op.touches] at ht; simp [World.setObj, World.alloc, upd_ne _ _ ht]
  | conv y z f =>
    obtain ⟨p, e1, e⟩ := bind_eq_ok e
    obtain ⟨cs, e2, e⟩ := bind_eq_ok e
    obtain ⟨-, rfl⟩ := place_eq e
    simp [Op.touches] at ht; simp [World.setObj, World.alloc, upd_ne _ _ ht]
  | move y z =>
    obtain ⟨p, e1, e⟩ := bind_eq_ok e
    obtain ⟨w1, e2, e⟩ := bind_eq_ok e
    obtain ⟨-, rfl⟩ := place_eq e2
    cases e
    simp [Op.touches] at ht; simp [World.setObj, upd_ne _ _ ht.1, upd_ne _ _ ht.2]
  | dtor y =>
    obtain ⟨p, e1, e⟩ := bind_eq_ok e
    obtain ⟨w1, e2, e⟩ := bind_eq_ok e
    cases e
    simp [Op.touches] at ht; simp [World.delObj, upd_ne _ _ ht, rel (obj_get e1) e2]
  | resize y n =>
    simp [Op.touches] at ht
    obtain ⟨p, e1, e⟩ := bind_eq_ok e
    by_cases hs : p.size = n
    · simp only [hs, if_true] at e
      cases e; rfl
    · simp only [hs, if_false] at e
      cases hw : p.own with
      | false => simp [hw] at e
      | true =>
        obtain ⟨w2, e', e1', -⟩ := free_ok hi (obj_get e1) hw
        simp only [hw, not_true_eq_false, if_false, e', bind_ok'] at e
        cases e
        simp [World.setObj, World.alloc, upd_ne _ _ ht, e1']
  | assign y z =>
    simp [Op.touches] at ht
    obtain ⟨o', e1, e⟩ := bind_eq_ok e
    obtain ⟨p', e2, e⟩ := bind_eq_ok e
    by_cases hyz : y = z
    · simp only [hyz, if_true] at e; cases e; rfl
    simp only [hyz, if_false] at e
    obtain ⟨w1, e3, e⟩ := bind_eq_ok e
    have hr := rel (obj_get e1) e3
    cases hp : p'.own with
    | true =>
      simp only [hp, if_true] at e
      obtain ⟨cs, e4, e⟩ := bind_eq_ok e
      cases e
      simp [World.setObj, World.alloc, upd_ne _ _ ht, hr]
    | false =>
      simp [hp] at e; cases e
      simp [World.setObj, upd_ne _ _ ht, hr]
  | moveAssign y z =>
    obtain ⟨o', e1, e⟩ := bind_eq_ok e
    obtain ⟨p', e2, e⟩ := bind_eq_ok e
    obtain ⟨w1, e3, e⟩ := bind_eq_ok e
    have hr := rel (obj_get e1) e3
    cases e
    simp [Op.touches] at ht; simp [World.setObj, upd_ne _ _ ht.1, upd_ne _ _ ht.2, hr]
  | swap y z =>
    obtain ⟨o', e1, e⟩ := bind_eq_ok e
    obtain ⟨p', e2, e⟩ := bind_eq_ok e
    cases e
    simp [Op.touches] at ht; simp [World.setObj, upd_ne _ _ ht.1, upd_ne _ _ ht.2]
  | write y i v =>
    obtain ⟨o', e1, e⟩ := bind_eq_ok e
    split at e
    · cases e
    · split at e
      · split at e
        · cases e; rfl
        · cases e
      · cases e
  | fill y v =>
    obtain ⟨o', e1, e⟩ := bind_eq_ok e
    split at e
    · split at e
      · cases e; rfl
      · cases e
    · split at e
      · split at e
        · cases e; rfl
        · cases e
      · cases e
  | load y vs =>
    obtain ⟨o', e1, e⟩ := bind_eq_ok e
    cases e
    simp [Op.touches] at ht; simp [World.setObj, World.alloc, upd_ne _ _ ht]

/-- Change of the map of slots by an operation. -/
theorem Rep.step {w w' : World R} {σ σ' : Nat → Slot R} (h : Rep w σ) {op : Op R} (ha : Adm w op) (hf : Frugal w op)
    (e : Own.step w op = .ok w') (hσ : ∀ x, x ∉ op.touches → σ' x = σ x)
    (ht : ∀ x, x ∈ op.touches → SlotOk w' x (σ' x)) : Rep w' σ' := by
  refine ⟨h.1.step ha hf e, fun x => ?_⟩
  by_cases hx : x ∈ op.touches
  · exact ht x hx
  rw [hσ x hx]
  have hi := h.1.reach.inv
  have ho := step_obj hx e hi
  have hs := h.2 x
  cases hc : σ x with
  | gone => rw [hc] at hs; exact ho.trans hs
  | hollow => rw [hc] at hs; exact ho.trans hs
  | held d =>
    rw [hc] at hs
    obtain ⟨o, h1, h2, h3⟩ := hs
    have k := step_keeps hi h1 h2 hx e
    exact ⟨o, k.1, h2, by rw [k.cells]; exact h3⟩

/-- Function update of slots. -/
abbrev put (σ : Nat → Slot R) (x : Nat) (s : Slot R) : Nat → Slot R := upd σ x s

theorem Rep.init : Rep (World.init : World R) (fun _ => .gone) := ⟨.init, fun _ => rfl⟩

theorem Rep.congr {w : World R} {σ τ : Nat → Slot R} (h : Rep w σ) (e : ∀ x, σ x = τ x) : Rep w τ :=
  ⟨h.1, fun x => e x ▸ h.2 x⟩

/-- `Storage()`. -/
theorem Rep.dflt {w : World R} {σ : Nat → Slot R} (h : Rep w σ) {x : Nat} (hx : σ x = .gone) :
    ∃ w', Own.step w (.dflt x) = .ok w' ∧ Rep w' (put σ x (.held [])) := by
  have h0 := (obj_of_rep h).1 hx
  refine ⟨_, place_ok _ h0, h.step (op := .dflt x) h0 trivial (place_ok _ h0) ?_ ?_⟩
  · intro y hy; simp [Op.touches] at hy; simp [put, upd_ne _ _ hy]
  · intro y hy; simp [Op.touches] at hy; subst hy
    simp only [put, upd_same]
    exact ⟨⟨none, 0, true⟩, by simp [World.setObj], rfl, by simp [World.cells]⟩

/-- `Storage(n)`. -/
theorem Rep.size {w : World R} {σ : Nat → Slot R} (h : Rep w σ) {x : Nat} (n : Nat) (hx : σ x = .gone) :
    ∃ w', Own.step w (.size x n) = .ok w' ∧ Rep w' (put σ x (.held (Buf.alloc n))) := by
  have h0 := (obj_of_rep h).1 hx
  have e : Own.step w (.size x n) = .ok ((w.alloc (Buf.alloc n) false).setObj x ⟨some w.next, n, true⟩) :=
    place_ok (w := w.alloc (Buf.alloc n) false) _ h0
  refine ⟨_, e, h.step (op := .size x n) h0 trivial e ?_ ?_⟩
  · intro y hy; simp [Op.touches] at hy; simp [put, upd_ne _ _ hy]
  · intro y hy; simp [Op.touches] at hy; subst hy
    simp only [put, upd_same]
    exact ⟨⟨some w.next, n, true⟩, by simp [World.setObj], rfl, by simp [World.cells, World.alloc, World.setObj, Buf.alloc]⟩

/-- Copy construction. -/
theorem Rep.copy {w : World R} {σ : Nat → Slot R} (h : Rep w σ) {x y : Nat} {d : Buf R} (hx : σ x = .gone)
    (hy : σ y = .held d) : ∃ w', Own.step w (.copy x y) = .ok w' ∧ Rep w' (put σ x (.held d)) := by
  have h0 := (obj_of_rep h).1 hx
  obtain ⟨o, h1, h2, h3⟩ := h.held hy
  obtain ⟨w', e, -, hc, -, p, hp, hpo⟩ := C07_copy_equal w h.1.reach x y o h0 h1
  refine ⟨w', e, h.step (op := .copy x y) ⟨h0, by simp [h1]⟩ (by intro q hq; rw [h1] at hq; cases hq; exact h2) e ?_ ?_⟩
  · intro z hz; simp [Op.touches] at hz; simp [put, upd_ne _ _ hz]
  · intro z hz; simp [Op.touches] at hz; subst hz
    simp only [put, upd_same]
    refine ⟨p, hp, by rw [hpo, h2], ?_⟩
    simp only [World.contents, hp, h1, h3] at hc
    cases hcc : w'.cells p with
    | error e => rw [hcc] at hc; simp [Except.toOption] at hc
    | ok cs => rw [hcc] at hc; simp [Except.toOption] at hc; rw [hc]

/-- Copy assignment. -/
theorem Rep.assign {w : World R} {σ : Nat → Slot R} (h : Rep w σ) {x y : Nat} {d : Buf R} (hx : σ x ≠ .gone)
    (hy : σ y = .held d) : ∃ w', Own.step w (.assign x y) = .ok w' ∧ Rep w' (put σ x (.held d)) := by
  obtain ⟨p0, h0⟩ := h.live hx
  obtain ⟨o, h1, h2, h3⟩ := h.held hy
  obtain ⟨w', e, -, hc, -, p, hp, hpo⟩ := C07_assign_equal w h.1.reach x y p0 o h0 h1 h2
  refine ⟨w', e, h.step (op := .assign x y) ⟨by simp [h0], by simp [h1]⟩ trivial e ?_ ?_⟩
  · intro z hz; simp [Op.touches] at hz; simp [put, upd_ne _ _ hz]
  · intro z hz; simp [Op.touches] at hz; subst hz
    simp only [put, upd_same]
    refine ⟨p, hp, hpo, ?_⟩
    simp only [World.contents, hp, h1, h3] at hc
    cases hcc : w'.cells p with
    | error e => rw [hcc] at hc; simp [Except.toOption] at hc
    | ok cs => rw [hcc] at hc; simp [Except.toOption] at hc; rw [hc]

/-- Move construction. -/
theorem Rep.move {w : World R} {σ : Nat → Slot R} (h : Rep w σ) {x y : Nat} {d : Buf R} (hx : σ x = .gone)
    (hy : σ y = .held d) :
    ∃ w', Own.step w (.move x y) = .ok w' ∧ Rep w' (put (put σ x (.held d)) y .hollow) := by
  have h0 := (obj_of_rep h).1 hx
  obtain ⟨o, h1, h2, h3⟩ := h.held hy
  have hxy : x ≠ y := by intro hc; subst hc; rw [hx] at hy; cases hy
  have e : Own.step w (.move x y) = .ok ((w.setObj x o).setObj y ⟨none, 0, false⟩) := by
    simp only [Own.step, get_ok h1, bind_ok', place_ok o h0]; rfl
  refine ⟨_, e, h.step (op := .move x y) ⟨h0, by simp [h1]⟩ trivial e ?_ ?_⟩
  · intro z hz; simp [Op.touches] at hz; simp [put, upd_ne _ _ hz.1, upd_ne _ _ hz.2]
  · intro z hz; simp [Op.touches] at hz
    rcases hz with rfl | rfl
    · simp only [put, upd_ne _ _ hxy, upd_same]
      exact ⟨o, by simp [World.setObj, upd_ne _ _ hxy], h2, h3⟩
    · simp only [put, upd_same]
      simp [SlotOk, World.setObj]

/-- Move assignment between different objects. -/
theorem Rep.moveAssign {w : World R} {σ : Nat → Slot R} (h : Rep w σ) {x y : Nat} {d : Buf R} (hx : σ x ≠ .gone)
    (hy : σ y = .held d) (hxy : x ≠ y) :
    ∃ w', Own.step w (.moveAssign x y) = .ok w' ∧ Rep w' (put (put σ x (.held d)) y .hollow) := by
  obtain ⟨p0, h0⟩ := h.live hx
  obtain ⟨o, h1, h2, h3⟩ := h.held hy
  rcases step_inv (op := .moveAssign x y) h.1.reach.inv ⟨by simp [h0], by simp [h1]⟩ with ⟨w', e, -⟩ | ⟨_, _, _, h', -⟩
  · refine ⟨w', e, h.step (op := .moveAssign x y) ⟨by simp [h0], by simp [h1]⟩ trivial e ?_ ?_⟩
    · intro z hz; simp [Op.touches] at hz; simp [put, upd_ne _ _ hz.1, upd_ne _ _ hz.2]
    · obtain ⟨o', e1, e⟩ := bind_eq_ok e
      obtain ⟨p', e2, e⟩ := bind_eq_ok e
      obtain ⟨w1, e3, e⟩ := bind_eq_ok e
      have := obj_get e2
      rw [h1] at this; cases this
      obtain ⟨k1, -, hobj⟩ := keeps_release h.1.reach.inv h1 (obj_get e1) (Ne.symm hxy) e3
      cases e
      intro z hz; simp [Op.touches] at hz
      rcases hz with rfl | rfl
      · simp only [put, upd_ne _ _ hxy, upd_same]
        exact ⟨o, by simp [World.setObj, upd_ne _ _ hxy], h2, by rw [← h3, ← k1.cells]; rfl⟩
      · simp only [put, upd_same]
        simp [SlotOk, World.setObj]
  · cases h'

/-- Destruction. -/
theorem Rep.dtor {w : World R} {σ : Nat → Slot R} (h : Rep w σ) {x : Nat} (hx : σ x ≠ .gone) :
    ∃ w', Own.step w (.dtor x) = .ok w' ∧ Rep w' (put σ x .gone) := by
  obtain ⟨p0, h0⟩ := h.live hx
  rcases step_inv (op := .dtor x) h.1.reach.inv (by simp [Adm, h0]) with ⟨w', e, -⟩ | ⟨_, _, _, h', -⟩
  · refine ⟨w', e, h.step (op := .dtor x) (by simp [Adm, h0]) trivial e ?_ ?_⟩
    · intro z hz; simp [Op.touches] at hz; simp [put, upd_ne _ _ hz]
    · intro z hz; simp [Op.touches] at hz; subst hz
      simp only [put, upd_same]
      obtain ⟨o', e1, e⟩ := bind_eq_ok e
      obtain ⟨w1, e2, e⟩ := bind_eq_ok e
      cases e
      simp [SlotOk, World.delObj]
  · cases h'

/-- `resize` of an owner. -/
theorem Rep.resize {w : World R} {σ : Nat → Slot R} (h : Rep w σ) {x : Nat} {d : Buf R} (n : Nat) (hx : σ x = .held d) :
    ∃ w', Own.step w (.resize x n) = .ok w' ∧ Rep w' (put σ x (.held (Dense.resizeBuf d n))) := by
  obtain ⟨o, h1, h2, h3⟩ := h.held hx
  have hl : d.length = o.size := by
    obtain ⟨cs, e, hl⟩ := cells_ok h.1.reach.inv h1
    rw [h3] at e; cases e; exact hl
  by_cases hs : o.size = n
  · have e : Own.step w (.resize x n) = .ok w := by
      simp only [Own.step, get_ok h1, bind_ok', hs, if_true]; rfl
    refine ⟨w, e, h.congr fun z => ?_⟩
    by_cases hz : z = x
    · subst hz; simp [put, upd_same, Dense.resizeBuf, hl, hs, hx]
    · simp [put, upd_ne _ _ hz]
  · obtain ⟨w2, e', -⟩ := free_ok h.1.reach.inv h1 h2
    have e : Own.step w (.resize x n) = .ok ((w2.alloc (Buf.alloc n) false).setObj x ⟨some w2.next, n, true⟩) := by
      simp only [Own.step, get_ok h1, bind_ok', hs, if_false, h2, not_true_eq_false, e']; rfl
    refine ⟨_, e, h.step (op := .resize x n) (by simp [Adm, h1]) trivial e ?_ ?_⟩
    · intro z hz; simp [Op.touches] at hz; simp [put, upd_ne _ _ hz]
    · intro z hz; simp [Op.touches] at hz; subst hz
      simp only [put, upd_same]
      refine ⟨⟨some w2.next, n, true⟩, by simp [World.setObj], rfl, ?_⟩
      simp [World.cells, World.alloc, World.setObj, Buf.alloc, Dense.resizeBuf, hl, hs]

/-- Exchange of two storages. -/
theorem Rep.swap {w : World R} {σ : Nat → Slot R} (h : Rep w σ) {x y : Nat} (hx : σ x ≠ .gone) (hy : σ y ≠ .gone) :
    ∃ w', Own.step w (.swap x y) = .ok w' ∧ Rep w' (put (put σ x (σ y)) y (σ x)) := by
  obtain ⟨o, h1⟩ := h.live hx
  obtain ⟨p, h2⟩ := h.live hy
  have e : Own.step w (.swap x y) = .ok ((w.setObj x p).setObj y o) := by
    simp only [Own.step, get_ok h1, get_ok h2, bind_ok']; rfl
  have ok : ∀ {a : Nat} {q : Obj} (s : Slot R) (b : Nat), w.obj a = some q → SlotOk w a s →
      ((w.setObj x p).setObj y o).obj b = some q → SlotOk ((w.setObj x p).setObj y o) b s := by
    intro a q s b ha hs hb
    cases s with
    | gone => simp [SlotOk, ha] at hs
    | hollow => simp only [SlotOk, ha] at hs; simp only [SlotOk, hb]; exact hs
    | held d =>
      obtain ⟨r, hr, hr2, hr3⟩ := hs
      rw [ha] at hr; cases hr
      exact ⟨q, hb, hr2, hr3⟩
  refine ⟨_, e, h.step (op := .swap x y) ⟨by simp [h1], by simp [h2]⟩ trivial e ?_ ?_⟩
  · intro z hz; simp [Op.touches] at hz; simp [put, upd_ne _ _ hz.1, upd_ne _ _ hz.2]
  · intro z hz; simp [Op.touches] at hz
    by_cases hzy : z = y
    · subst hzy
      simp only [put, upd_same]
      exact ok _ _ h1 (h.2 x) (by simp [World.setObj])
    · have hzx : z = x := by tauto
      subst hzx
      simp only [put, upd_ne _ _ hzy, upd_same]
      exact ok _ _ h2 (h.2 y) (by simp [World.setObj, upd_ne _ _ hzy])

/-- The cells of an owner after its block was changed. -/
theorem cells_poke {w : World R} {o : Obj} {b : Nat} {blk : Block R} (hb : o.data = some b)
    (hlen : o.size ≤ blk.cells.length) :
    ({ w with heap := upd w.heap b (some blk) } : World R).cells o = .ok (blk.cells.take o.size) := by
  simp [World.cells, hb, hlen]

/-- Element write. -/
theorem Rep.write {w : World R} {σ : Nat → Slot R} (h : Rep w σ) {x i : Nat} {d : Buf R} (v : R) (hx : σ x = .held d)
    (hi : i < d.length) : ∃ w', Own.step w (.write x i v) = .ok w' ∧ Rep w' (put σ x (.held (d.set i (some v)))) := by
  obtain ⟨o, h1, h2, h3⟩ := h.held hx
  have hok := h.1.reach.inv.ok x o h1
  unfold OkObj at hok
  cases hd : o.data with
  | none =>
    rw [hd] at hok
    simp only [World.cells, hd] at h3
    rw [if_pos hok] at h3
    cases h3; simp at hi
  | some b =>
    rw [hd] at hok
    obtain ⟨blk, hb, hle, hown⟩ := hok
    have hlen := (hown h2).2
    have hcells : d = blk.cells.take o.size := by
      simp only [World.cells, hd, hb] at h3
      rw [if_pos hle] at h3; cases h3; rfl
    have hdl : d.length = o.size := by rw [hcells]; simp [hle]
    have hi2 : i < o.size := by omega
    have e : Own.step w (.write x i v) =
        .ok { w with heap := upd w.heap b (some { blk with cells := blk.cells.set i (some v) }) } := by
      simp only [Own.step, get_ok h1, bind_ok', hd, hb]
      rw [if_pos ⟨hi2, by omega⟩]
    refine ⟨_, e, h.step (op := .write x i v) ⟨o, h1, hi2⟩ trivial e ?_ ?_⟩
    · intro z hz; simp [Op.touches] at hz; simp [put, upd_ne _ _ hz]
    · intro z hz; simp [Op.touches] at hz; subst hz
      simp only [put, upd_same]
      refine ⟨o, h1, h2, ?_⟩
      rw [cells_poke hd (by simp [hle])]
      simp only [hcells]
      rw [List.take_of_length_le (by simp; omega), List.take_of_length_le (by omega)]

/-- `fill`. -/
theorem Rep.fill {w : World R} {σ : Nat → Slot R} (h : Rep w σ) {x : Nat} {d : Buf R} (v : R) (hx : σ x = .held d) :
    ∃ w', Own.step w (.fill x v) = .ok w' ∧ Rep w' (put σ x (.held (List.replicate d.length (some v)))) := by
  obtain ⟨o, h1, h2, h3⟩ := h.held hx
  have hok := h.1.reach.inv.ok x o h1
  unfold OkObj at hok
  cases hd : o.data with
  | none =>
    rw [hd] at hok
    simp only [World.cells, hd] at h3
    rw [if_pos hok] at h3
    cases h3
    have e : Own.step w (.fill x v) = .ok w := by
      simp only [Own.step, get_ok h1, bind_ok', hd]; rw [if_pos hok]
    refine ⟨w, e, h.congr fun z => ?_⟩
    by_cases hz : z = x
    · subst hz; simp [put, upd_same, hx]
    · simp [put, upd_ne _ _ hz]
  | some b =>
    rw [hd] at hok
    obtain ⟨blk, hb, hle, hown⟩ := hok
    have hlen := (hown h2).2
    have hcells : d = blk.cells.take o.size := by
      simp only [World.cells, hd, hb] at h3
      rw [if_pos hle] at h3; cases h3; rfl
    have hdl : d.length = o.size := by rw [hcells]; simp [hle]
    have e : Own.step w (.fill x v) =
        .ok { w with heap := upd w.heap b (some { blk with
            cells := List.replicate o.size (some v) ++ blk.cells.drop o.size }) } := by
      simp only [Own.step, get_ok h1, bind_ok', hd, hb]
      rw [if_pos hle]
    refine ⟨_, e, h.step (op := .fill x v) (by simp [Adm, h1]) trivial e ?_ ?_⟩
    · intro z hz; simp [Op.touches] at hz; simp [put, upd_ne _ _ hz]
    · intro z hz; simp [Op.touches] at hz; subst hz
      simp only [put, upd_same]
      refine ⟨o, h1, h2, ?_⟩
      rw [cells_poke hd (by simp)]
      simp [hdl]

end BB.Own
