import Verif.Model.Together
import Verif.Props.Saved
import Verif.Props.Interrupted

/-! C140: programs that write files at the same time. -/

namespace BB.Together

open Saved (Proc Sys putAt upd)

variable {β R : Type}

/-- Where a program is that began as `init`; the number: the elements it has written since it opened its file. -/
inductive At : Proc β → Proc β → Option Nat → Prop
  | waiting (p l) : At (.opening p l) (.opening p l) none
  | writing (p : String) (l : List β) (k : Nat) (h : k ≤ l.length) : At (.opening p l) (.writing p (l.drop k) k) (some k)
  | wrote (p : String) (l : List β) : At (.opening p l) .wrote (some l.length)
  | still (s : Proc β) (h : s.busy = false) : At s s none

/-- What is known about the file `q` while the programs that began as `init` write. -/
def FileInv (init : Nat → Proc β) (fs0 : String → Option (List β)) (prog : Nat → Option Nat) (fs : String → Option (List β)) (q : String) : Prop :=
  (fs q = fs0 q ∧ ∀ i l, init i = .opening q l → prog i = none) ∨
  ∃ b j k l, fs q = some b ∧ init j = .opening q l ∧ prog j = some k ∧ k ≤ b.length ∧
    (∀ pos, pos < k → ∃ i l', init i = .opening q l' ∧ pos < l'.length ∧ b[pos]? = l'[pos]?) ∧
    (∀ pos, pos < b.length → ∃ i l', init i = .opening q l' ∧ pos < l'.length)

def Inv (init : Nat → Proc β) (fs0 : String → Option (List β)) (s : Sys β) : Prop :=
  ∃ prog : Nat → Option Nat, (∀ i, At (init i) (s.proc i) (prog i)) ∧ ∀ q, FileInv init fs0 prog s.fs q

theorem putAt_length [Inhabited β] (b : List β) (k : Nat) (x : β) : (putAt b k x).length = max b.length (k + 1) := by
  unfold putAt
  simp only [List.length_append, List.length_take, List.length_replicate, List.length_cons, List.length_drop]
  omega

theorem putAt_same [Inhabited β] (b : List β) (k : Nat) (x : β) : (putAt b k x)[k]? = some x := by
  unfold putAt
  have h : ((b ++ List.replicate (k - b.length) default).take k).length = k := by
    simp only [List.length_take, List.length_append, List.length_replicate]; omega
  rw [List.getElem?_append_right (by omega), h]
  simp

theorem putAt_ne [Inhabited β] (b : List β) (k : Nat) (x : β) (pos : Nat) (hp : pos < b.length) (hne : pos ≠ k) : (putAt b k x)[pos]? = b[pos]? := by
  unfold putAt
  have h : ((b ++ List.replicate (k - b.length) default).take k).length = k := by
    simp only [List.length_take, List.length_append, List.length_replicate]; omega
  rcases Nat.lt_or_gt_of_ne hne with hlt | hgt
  · rw [List.getElem?_append_left (by omega), List.getElem?_take_of_lt hlt, List.getElem?_append_left hp]
  · rw [List.getElem?_append_right (by omega), h]
    obtain ⟨n, hn⟩ : ∃ n, pos - k = n + 1 := ⟨pos - k - 1, by omega⟩
    rw [hn, List.getElem?_cons_succ, List.getElem?_drop]
    congr 1
    omega

/-- A file is not touched by a step that changes neither it nor the programs that write it. -/
theorem FileInv.frame {init : Nat → Proc β} {fs0 fs fs' : String → Option (List β)} {prog prog' : Nat → Option Nat} {q : String} (h : FileInv init fs0 prog fs q)
    (hf : fs' q = fs q) (hp : ∀ i l, init i = .opening q l → prog' i = prog i) : FileInv init fs0 prog' fs' q := by
  rcases h with ⟨h1, h2⟩ | ⟨b, j, k, l, h1, h2, h3, h4⟩
  · exact .inl ⟨hf.trans h1, fun i l hi => (hp i l hi).trans (h2 i l hi)⟩
  · exact .inr ⟨b, j, k, l, hf.trans h1, h2, (hp j l h2).trans h3, h4⟩

theorem Inv.step [Inhabited β] {init : Nat → Proc β} {fs0 : String → Option (List β)} {s : Sys β} (h : Inv init fs0 s) (i : Nat) : Inv init fs0 (s.step i) := by
  obtain ⟨prog, hA, hF⟩ := h
  have hi := hA i
  generalize hinit : init i = a at hi
  generalize hcur : s.proc i = c at hi
  generalize hprog : prog i = g at hi
  have upd_at : ∀ (c' : Proc β) (g' : Option Nat), At a c' g' → ∀ m, At (init m) (upd s.proc i c' m) (upd prog i g' m) := by
    intro c' g' h m
    unfold upd
    by_cases e : m = i
    · subst e; simp only [if_true]; rw [hinit]; exact h
    · simp only [if_neg e]; exact hA m
  cases hi with
  | waiting p l =>
    unfold Sys.step
    rw [hcur]
    refine ⟨upd prog i (some 0), upd_at _ _ (by simpa using At.writing p l 0 (by omega)), fun q => ?_⟩
    dsimp only
    by_cases hq : q = p
    · subst hq
      exact .inr ⟨[], i, 0, l, by simp [upd], hinit, by simp [upd], by simp, by simp, by simp⟩
    · refine (hF q).frame (by simp [upd, hq]) fun m l' hm => ?_
      have : m ≠ i := by rintro rfl; rw [hinit] at hm; cases hm; exact hq rfl
      simp [upd, this]
  | writing p l k hk =>
    unfold Sys.step
    rw [hcur]
    by_cases hlt : k < l.length
    · rw [List.drop_eq_getElem_cons hlt]
      refine ⟨upd prog i (some (k + 1)), upd_at _ _ (At.writing p l (k + 1) hlt), fun q => ?_⟩
      dsimp only
      by_cases hq : q = p
      · subst hq
        rcases hF q with ⟨-, h2⟩ | ⟨b, j, k', l', h1, h2, h3, h4, h5, h6⟩
        · have := h2 i l hinit
          rw [hprog] at this
          cases this
        · refine .inr ⟨putAt b k l[k], j, if j = i then k + 1 else k', l', by simp [upd, h1], h2, ?_, ?_, fun pos hpos => ?_, fun pos hpos => ?_⟩
          · by_cases e : j = i <;> simp [upd, e, h3]
          · rw [putAt_length]; split <;> omega
          · have hk' : pos = k ∨ pos < k' := by
              by_cases e : j = i
              · subst e
                rw [hprog] at h3
                cases h3
                rw [if_pos rfl] at hpos
                omega
              · rw [if_neg e] at hpos
                exact .inr hpos
            by_cases e : pos = k
            · subst e
              exact ⟨i, l, hinit, hlt, by rw [putAt_same, List.getElem?_eq_getElem hlt]⟩
            · obtain ⟨m, lm, e1, e2, e3⟩ := h5 pos (by omega)
              exact ⟨m, lm, e1, e2, by rw [putAt_ne _ _ _ _ (by omega) e]; exact e3⟩
          · rw [putAt_length] at hpos
            by_cases e : pos < b.length
            · exact h6 pos e
            · exact ⟨i, l, hinit, by omega⟩
      · refine (hF q).frame (by simp [upd, hq]) fun m l' hm => ?_
        have : m ≠ i := by rintro rfl; rw [hinit] at hm; cases hm; exact hq rfl
        simp [upd, this]
    · have hk' : k = l.length := by omega
      subst hk'
      rw [List.drop_of_length_le (Nat.le_refl _)]
      refine ⟨prog, fun m => ?_, hF⟩
      have := upd_at .wrote (some l.length) (At.wrote p l) m
      dsimp only at this ⊢
      by_cases e : m = i
      · subst e; rw [hprog]; simpa [upd] using this
      · simpa [upd, e] using this
  | wrote p l =>
    have : s.step i = s := by unfold Sys.step; rw [hcur]
    rw [this]
    exact ⟨prog, hA, hF⟩
  | still s' h =>
    have : s.step i = s := by
      unfold Sys.step
      cases a <;> simp_all [Proc.busy]
    rw [this]
    exact ⟨prog, hA, hF⟩

theorem inv_run [Inhabited β] (s : Sys β) (h : ∀ i, (s.proc i).busy = true → ∃ p l, s.proc i = .opening p l) (es : List Nat) : Inv s.proc s.fs (run s es) := by
  have start : Inv s.proc s.fs s := by
    refine ⟨fun _ => none, fun i => ?_, fun q => .inl ⟨rfl, fun _ _ _ => rfl⟩⟩
    by_cases hb : (s.proc i).busy = true
    · obtain ⟨p, l, e⟩ := h i hb
      rw [e]
      exact .waiting p l
    · exact .still _ (by simpa using hb)
  unfold run
  generalize hs : s.proc = init, s.fs = fs0 at start
  clear hs h
  induction es generalizing s with
  | nil => exact start
  | cons i es ih => exact ih _ (start.step i)

/-- C140: any number of programs write files at the same time, in any schedule, until all have ended.  A file that none of them writes is as before.  A file that
is written holds, for one of its writers, at least as many elements as that writer wrote, each of them from one of the writers at the same position.
(Missing: the content as a whole, `C140_mixture_counterexample`; `C140_same_content`.) -/
theorem C140_elements_partial [Inhabited β] (s : Sys β) (h : ∀ i, (s.proc i).busy = true → ∃ p l, s.proc i = .opening p l) (es : List Nat)
    (hend : ∀ i, ((run s es).proc i).busy = false) (q : String) :
    ((∀ i l, s.proc i ≠ .opening q l) → (run s es).fs q = s.fs q) ∧
    ((∃ i l, s.proc i = .opening q l) → ∃ b j l, (run s es).fs q = some b ∧ s.proc j = .opening q l ∧ l.length ≤ b.length ∧
      (∀ pos, pos < l.length → ∃ i l', s.proc i = .opening q l' ∧ pos < l'.length ∧ b[pos]? = l'[pos]?) ∧
      (∀ pos, pos < b.length → ∃ i l', s.proc i = .opening q l' ∧ pos < l'.length)) := by
  obtain ⟨prog, hA, hF⟩ := inv_run s h es
  refine ⟨fun hn => ?_, fun ⟨i, l, hi⟩ => ?_⟩
  · rcases hF q with ⟨h1, -⟩ | ⟨b, j, k, l, -, h2, -⟩
    · exact h1
    · exact absurd h2 (hn j l)
  · have ended : ∀ i l, s.proc i = .opening q l → prog i = some l.length := by
      intro i l hi
      have ha := hA i
      have he := hend i
      rw [hi] at ha
      generalize (run s es).proc i = c at ha he
      generalize prog i = g at ha ⊢
      cases ha with
      | waiting => simp [Proc.busy] at he
      | writing => simp [Proc.busy] at he
      | wrote => rfl
      | still => simp [Proc.busy] at he
    rcases hF q with ⟨-, h2⟩ | ⟨b, j, k, l', h1, h2, h3, h4, h5, h6⟩
    · have := h2 i l hi
      rw [ended i l hi] at this
      cases this
    · rw [ended j l' h2] at h3
      cases h3
      exact ⟨b, j, l', h1, h2, h4, h5, h6⟩

/-- C140: a file whose writers all write the same content – one writer, or several – holds that content when all programs have ended. -/
theorem C140_same_content [Inhabited β] (s : Sys β) (h : ∀ i, (s.proc i).busy = true → ∃ p l, s.proc i = .opening p l) (es : List Nat)
    (hend : ∀ i, ((run s es).proc i).busy = false) (q : String) (l : List β) (hw : ∃ i, s.proc i = .opening q l) (hs : ∀ i l', s.proc i = .opening q l' → l' = l) :
    (run s es).fs q = some l := by
  obtain ⟨i, hi⟩ := hw
  obtain ⟨b, j, l', h1, h2, h3, h4, h5⟩ := (C140_elements_partial s h es hend q).2 ⟨i, l, hi⟩
  obtain rfl := hs j l' h2
  rw [h1]
  congr 1
  have hle : b.length ≤ l'.length := by
    by_contra hc
    obtain ⟨m, lm, e1, e2⟩ := h5 l'.length (by omega)
    rw [hs m lm e1] at e2
    omega
  refine List.ext_getElem? fun pos => ?_
  by_cases hp : pos < l'.length
  · obtain ⟨m, lm, e1, -, e3⟩ := h4 pos hp
    rw [e3, hs m lm e1]
  · rw [List.getElem?_eq_none (by omega), List.getElem?_eq_none (by omega)]

/-- The steps a program has left. -/
def work : Proc β → Nat
  | .write _ l _ => l.length + 3
  | .opening _ l => l.length + 2
  | .writing _ l _ => l.length + 1
  | .read _ => 2
  | .reading _ => 1
  | _ => 0

theorem work_step [Inhabited β] (s : Sys β) (i j : Nat) : work ((s.step i).proc j) ≤ work (s.proc j) - (if i = j then 1 else 0) := by
  by_cases e : j = i
  · subst e
    unfold Sys.step
    cases h : s.proc j with
    | write p l o => dsimp only; split <;> simp [upd, work]
    | writing p l k => cases l <;> simp [upd, work]
    | read p => dsimp only; split <;> simp [upd, work]
    | _ => simp [upd, work, h]
  · rw [if_neg (Ne.symm e)]
    have : (s.step i).proc j = s.proc j := by
      unfold Sys.step
      cases h : s.proc i with
      | write p l o => dsimp only; split <;> simp [upd, e]
      | writing p l k => cases l <;> simp [upd, e]
      | read p => dsimp only; split <;> simp [upd, e]
      | _ => simp [upd, e]
    rw [this]
    exact Nat.le_refl _

/-- C140: a program that gets one step for every element it writes, one for opening and one for closing its file has ended, whatever the others do. -/
theorem C140_ends [Inhabited β] (s : Sys β) (es : List Nat) (i : Nat) (p : String) (l : List β) (hi : s.proc i = .opening p l) (hc : l.length + 2 ≤ es.count i) :
    ((run s es).proc i).busy = false := by
  have key : ∀ (es : List Nat) (s : Sys β), work ((run s es).proc i) ≤ work (s.proc i) - es.count i := by
    intro es
    induction es with
    | nil => intro s; simp [run]
    | cons j es ih =>
      intro s
      have h1 := ih (s.step j)
      have h2 := work_step s j i
      have h3 : run s (j :: es) = run (s.step j) es := rfl
      rw [h3, List.count_cons]
      have h4 : (if (j == i) = true then 1 else 0) = (if j = i then 1 else 0) := by simp
      rw [h4]
      omega
  have := key es s
  rw [hi] at this
  have h0 : work ((run s es).proc i) = 0 := by simp only [work] at this ⊢; omega
  generalize (run s es).proc i = c at h0
  cases c <;> simp_all [work, Proc.busy]

section generators

variable [Zero R] [Add R] [Inhabited R] (asserts : Bool) (x y : R)

/-- What a generator writes. -/
theorem main_eq (o : Files.Options R) (w : Files.Disk R) (hw : w.writable o.file = true) :
    (∃ l, generator asserts x y o = .opening o.file l ∧ (Files.main asserts x y o w).1 = { w with bin := fun q => if q = o.file then some l else w.bin q }) ∨
    ((generator asserts x y o).busy = false ∧ (Files.main asserts x y o w).1 = w) := by
  unfold generator Files.main
  rcases Files.matrixOf asserts x y o with e | A
  · exact .inr ⟨rfl, by cases e <;> rfl⟩
  · dsimp only
    rcases Files.dump A.data 0 A.dim.fullSize with e | l
    · exact .inr ⟨rfl, rfl⟩
    · exact .inl ⟨l, rfl, by simp [hw]⟩

theorem sequential_at (q : String) (os : List (Files.Options R)) (w : Files.Disk R) (hw : ∀ p, w.writable p = true) :
    ((∀ o ∈ os, ∀ l, generator asserts x y o ≠ .opening q l) → (sequential asserts x y os w).bin q = w.bin q) ∧
    (∀ l, (∃ o ∈ os, generator asserts x y o = .opening q l) → (∀ o ∈ os, ∀ l', generator asserts x y o = .opening q l' → l' = l) →
      (sequential asserts x y os w).bin q = some l) := by
  induction os generalizing w with
  | nil => exact ⟨fun _ => rfl, fun l ⟨o, h, _⟩ => absurd h (by simp)⟩
  | cons o os ih =>
    have hs : sequential asserts x y (o :: os) w = sequential asserts x y os (Files.main asserts x y o w).1 := rfl
    rw [hs]
    rcases main_eq asserts x y o w (hw _) with ⟨l0, hg, hm⟩ | ⟨hg, hm⟩
    · obtain ⟨ih1, ih2⟩ := ih (Files.main asserts x y o w).1 (by rw [hm]; exact hw)
      refine ⟨fun h => ?_, fun l hl ha => ?_⟩
      · rw [ih1 fun o' ho' => h o' (by simp [ho']), hm]
        have : q ≠ o.file := by rintro rfl; exact h o (by simp) l0 hg
        simp [this]
      · by_cases he : ∃ o' ∈ os, generator asserts x y o' = .opening q l
        · exact ih2 l he fun o' ho' => ha o' (by simp [ho'])
        · obtain ⟨o', ho', e⟩ := hl
          rcases List.mem_cons.1 ho' with rfl | ho'
          · rw [ih1, hm]
            · rw [hg] at e
              cases e
              simp
            · intro o'' h'' l' e''
              obtain rfl := ha o'' (by simp [h'']) l' e''
              exact he ⟨o'', h'', e''⟩
          · exact absurd ⟨o', ho', e⟩ he
    · rw [hm]
      obtain ⟨ih1, ih2⟩ := ih w hw
      have no : ∀ l, generator asserts x y o ≠ .opening q l := by
        intro l e
        rw [e] at hg
        cases hg
      refine ⟨fun h => ih1 fun o' ho' => h o' (by simp [ho']), fun l ⟨o', ho', e⟩ ha => ih2 l ⟨o', ?_, e⟩ fun o'' h'' => ha o'' (by simp [h''])⟩
      rcases List.mem_cons.1 ho' with rfl | ho'
      · exact absurd e (no l)
      · exact ho'

theorem generator_busy (o : Files.Options R) (h : (generator asserts x y o).busy = true) : ∃ l, generator asserts x y o = .opening o.file l := by
  unfold generator at h ⊢
  generalize Files.matrixOf asserts x y o = M at h ⊢
  rcases M with e | A
  · exact absurd h (by simp [Proc.busy])
  · dsimp only at h ⊢
    generalize Files.dump A.data 0 A.dim.fullSize = D at h ⊢
    rcases D with e | l
    · exact absurd h (by simp [Proc.busy])
    · exact ⟨l, rfl⟩

/-- C140: generate_matrix programs that run at the same time – in any schedule, until all have ended – leave the files as if they had run one after the other, if
those with the same file have the same options. -/
theorem C140_generators (os : List (Files.Options R)) (hsame : ∀ o ∈ os, ∀ o' ∈ os, o.file = o'.file → o = o') (w : Files.Disk R) (hw : ∀ p, w.writable p = true)
    (es : List Nat) (hend : ∀ i, ((run (start asserts x y os w) es).proc i).busy = false) :
    (run (start asserts x y os w) es).fs = (sequential asserts x y os w).bin := by
  have proc : ∀ i p l, (start asserts x y os w).proc i = .opening p l ↔ ∃ o, os[i]? = some o ∧ generator asserts x y o = .opening p l := by
    intro i p l
    unfold start
    dsimp only
    generalize os[i]? = a
    cases a <;> simp
  have busy : ∀ i, ((start asserts x y os w).proc i).busy = true → ∃ p l, (start asserts x y os w).proc i = .opening p l := by
    intro i h
    rcases ho : os[i]? with _ | o
    · simp [start, ho, Proc.busy] at h
    · simp only [start, ho] at h ⊢
      obtain ⟨l, e⟩ := generator_busy asserts x y o h
      exact ⟨_, l, e⟩
  have path : ∀ (o : Files.Options R) (q : String) (l : List R), generator asserts x y o = .opening q l → o.file = q := by
    intro o q l e
    obtain ⟨l', e'⟩ := generator_busy asserts x y o (by rw [e]; rfl)
    rw [e] at e'
    cases e'
    rfl
  funext q
  by_cases hx : ∃ o ∈ os, ∃ l, generator asserts x y o = .opening q l
  · obtain ⟨o, ho, l, e⟩ := hx
    have all : ∀ o' ∈ os, ∀ l', generator asserts x y o' = .opening q l' → l' = l := by
      intro o' ho' l' e'
      obtain rfl := hsame o ho o' ho' ((path o q l e).trans (path o' q l' e').symm)
      rw [e] at e'
      cases e'
      rfl
    rw [(sequential_at asserts x y q os w hw).2 l ⟨o, ho, e⟩ all]
    obtain ⟨i, hi⟩ := List.mem_iff_getElem?.1 ho
    refine C140_same_content _ busy es hend q l ⟨i, (proc i q l).2 ⟨o, hi, e⟩⟩ fun j l' hj => ?_
    obtain ⟨o', h1, h2⟩ := (proc j q l').1 hj
    exact all o' (List.mem_of_getElem? h1) l' h2
  · rw [(sequential_at asserts x y q os w hw).1 fun o ho l e => hx ⟨o, ho, l, e⟩]
    refine (C140_elements_partial _ busy es hend q).1 fun i l e => ?_
    obtain ⟨o, h1, h2⟩ := (proc i q l).1 e
    exact hx ⟨o, List.mem_of_getElem? h1, l, h2⟩

/-- C140: in particular any order of the programs leaves the same files. -/
theorem C140_order (os os' : List (Files.Options R)) (hperm : os.Perm os') (hsame : ∀ o ∈ os, ∀ o' ∈ os, o.file = o'.file → o = o') (w : Files.Disk R)
    (hw : ∀ p, w.writable p = true) : (sequential asserts x y os w).bin = (sequential asserts x y os' w).bin := by
  funext q
  by_cases hx : ∃ o ∈ os, ∃ l, generator asserts x y o = .opening q l
  · obtain ⟨o, ho, l, e⟩ := hx
    have path : ∀ (o : Files.Options R) (q : String) (l : List R), generator asserts x y o = .opening q l → o.file = q := by
      intro o q l e
      obtain ⟨l', e'⟩ := generator_busy asserts x y o (by rw [e]; rfl)
      rw [e] at e'
      cases e'
      rfl
    have all : ∀ o' ∈ os, ∀ l', generator asserts x y o' = .opening q l' → l' = l := by
      intro o' ho' l' e'
      obtain rfl := hsame o ho o' ho' ((path o q l e).trans (path o' q l' e').symm)
      rw [e] at e'
      cases e'
      rfl
    rw [(sequential_at asserts x y q os w hw).2 l ⟨o, ho, e⟩ all,
      (sequential_at asserts x y q os' w hw).2 l ⟨o, hperm.mem_iff.1 ho, e⟩ fun o' ho' => all o' (hperm.mem_iff.2 ho')]
  · rw [(sequential_at asserts x y q os w hw).1 fun o ho l e => hx ⟨o, ho, l, e⟩,
      (sequential_at asserts x y q os' w hw).1 fun o ho l e => hx ⟨o, hperm.mem_iff.2 ho, l, e⟩]

end generators

/-- C140 (negation): two programs with different options for one file.  In this schedule the second opens the file after the first has written one element; the first
goes on behind it.  Both end; the file has the size of a matrix, and is neither of the two matrices: it holds elements
of both. -/
theorem C140_mixture_counterexample :
    let os : List (Files.Options Int) := [⟨"m.dat", "band", 2, 2, 2, 7⟩, ⟨"m.dat", "band", 2, 2, 2, 8⟩]
    let w : Files.Disk Int := ⟨fun _ => none, fun _ => none, fun _ => true⟩
    let s := run (start true 0 0 os w) [0, 1, 0, 1, 1, 1, 1, 0, 0, 0, 1, 0]
    ((s.proc 0).busy = false ∧ (s.proc 1).busy = false) ∧ s.fs "m.dat" = some [8, 7, 7, 7] ∧
      (Files.main true 0 0 ⟨"m.dat", "band", 2, 2, 2, 7⟩ w).1.bin "m.dat" = some [7, 7, 7, 7] ∧
      (Files.main true 0 0 ⟨"m.dat", "band", 2, 2, 2, 8⟩ w).1.bin "m.dat" = some [8, 8, 8, 8] := by
  decide +kernel

/-- C140 (negation): even with the same options a program must not be stopped while another runs.  The second is stopped when it has opened, and emptied, the file; the first,
which had written one element, goes on behind the gap and reports success.  The file has the size of the matrix, the importer accepts it, and its first
element was written by no program. -/
theorem C140_stopped_beside_counterexample :
    let os : List (Files.Options Int) := [⟨"m.dat", "band", 2, 2, 2, 7⟩, ⟨"m.dat", "band", 2, 2, 2, 7⟩]
    let w : Files.Disk Int := ⟨fun _ => none, fun _ => none, fun _ => true⟩
    let s := (start true 0 0 os w).run [.step 0, .step 0, .step 1, .stop 1, .step 0, .step 0, .step 0, .step 0]
    (s.proc 0 = .wrote ∧ s.proc 1 = .idle) ∧ s.fs "m.dat" = some [0, 7, 7, 7] ∧
      (FileIO.importFile 2 2 (s.fs "m.dat")).toOption.map (·.data) = some [some 0, some 7, some 7, some 7] := by
  decide +kernel

/-- The file a program is going to write. -/
def target : Proc β → Option String
  | .write p _ _ | .opening p _ | .writing p _ _ => some p
  | _ => none

/-- C140: programs that take turns: if, at some point, one program is about to open the file and every other program has finished with it (or never writes it), whatever
was written before, then the file holds the content of that program when all have ended, whatever the others do with other files meanwhile. -/
theorem C140_turns [Inhabited β] (s : Sys β) (es es' : List Nat) (j : Nat) (q : String) (l : List β) (hj : (run s es).proc j = .opening q l)
    (hothers : ∀ i, i ≠ j → target ((run s es).proc i) ≠ some q) (hend : ((run s (es ++ es')).proc j).busy = false) :
    (run s (es ++ es')).fs q = some l := by
  have hsplit : run s (es ++ es') = run (run s es) es' := by simp [run]
  rw [hsplit] at hend ⊢
  generalize run s es = s at hj hothers hend ⊢
  have step : ∀ t : Sys β, (∀ i, i ≠ j → target (t.proc i) ≠ some q) →
      (t.proc j = .opening q l ∨ (∃ k, k ≤ l.length ∧ t.proc j = .writing q (l.drop k) k ∧ t.fs q = some (l.take k)) ∨ (t.proc j = .wrote ∧ t.fs q = some l)) →
      ∀ i, (∀ m, m ≠ j → target ((t.step i).proc m) ≠ some q) ∧
        ((t.step i).proc j = .opening q l ∨ (∃ k, k ≤ l.length ∧ (t.step i).proc j = .writing q (l.drop k) k ∧ (t.step i).fs q = some (l.take k)) ∨
          ((t.step i).proc j = .wrote ∧ (t.step i).fs q = some l)) := by
    intro t ho hs i
    by_cases e : i = j
    · subst e
      have keep : ∀ m, m ≠ i → (t.step i).proc m = t.proc m := by
        intro m hm
        unfold Sys.step
        cases h : t.proc i with
        | write p l o => dsimp only; split <;> simp [upd, hm]
        | writing p l k => cases l <;> simp [upd, hm]
        | read p => dsimp only; split <;> simp [upd, hm]
        | _ => simp [upd, hm]
      refine ⟨fun m hm => by rw [keep m hm]; exact ho m hm, ?_⟩
      rcases hs with h | ⟨k, hk, h, hf⟩ | ⟨h, hf⟩
      · refine .inr (.inl ⟨0, by omega, ?_, ?_⟩) <;> simp [Sys.step, h, upd]
      · by_cases hlt : k < l.length
        · refine .inr (.inl ⟨k + 1, hlt, ?_, ?_⟩)
          · rw [List.drop_eq_getElem_cons hlt] at h
            unfold Sys.step
            rw [h]
            simp only [upd, if_true]
          · rw [List.drop_eq_getElem_cons hlt] at h
            have hl : (l.take k).length = k := by simp; omega
            have := Saved.putAt_end (l.take k) l[k]
            rw [hl] at this
            simp only [Sys.step, h, upd, hf, Option.getD_some, this, if_true]
            rw [List.take_concat_get' l k hlt]
        · have : k = l.length := by omega
          subst this
          rw [List.drop_of_length_le (Nat.le_refl _)] at h
          rw [List.take_of_length_le (Nat.le_refl _)] at hf
          refine .inr (.inr ⟨?_, ?_⟩) <;> simp [Sys.step, h, upd, hf]
      · refine .inr (.inr ⟨?_, ?_⟩) <;> simp [Sys.step, h, hf]
    · have hi := ho i e
      have hp : (t.step i).proc j = t.proc j := by
        unfold Sys.step
        cases h : t.proc i with
        | write p l o => dsimp only; split <;> simp [upd, Ne.symm e]
        | writing p l k => cases l <;> simp [upd, Ne.symm e]
        | read p => dsimp only; split <;> simp [upd, Ne.symm e]
        | _ => simp [upd, Ne.symm e]
      have hf : (t.step i).fs q = t.fs q := by
        unfold Sys.step
        cases h : t.proc i with
        | write p l o => dsimp only; split <;> rfl
        | opening p l =>
          rw [h] at hi
          have : q ≠ p := fun e => hi (by rw [e]; rfl)
          simp [upd, this]
        | writing p l k =>
          rw [h] at hi
          have : q ≠ p := fun e => hi (by rw [e]; rfl)
          cases l <;> simp [upd, this]
        | read p => dsimp only; split <;> rfl
        | _ => rfl
      have hm : ∀ m, m ≠ j → target ((t.step i).proc m) ≠ some q := by
        intro m hm
        by_cases em : m = i
        · subst em
          unfold Sys.step
          cases h : t.proc m with
          | write p l o => rw [h] at hi; dsimp only; split <;> simp_all [upd, target]
          | opening p l => rw [h] at hi; simp_all [upd, target]
          | writing p l k => rw [h] at hi; cases l <;> simp_all [upd, target]
          | read p => dsimp only; split <;> simp [upd, target]
          | _ => simp [upd, target, h]
        · have : (t.step i).proc m = t.proc m := by
            unfold Sys.step
            cases h : t.proc i with
            | write p l o => dsimp only; split <;> simp [upd, em]
            | writing p l k => cases l <;> simp [upd, em]
            | read p => dsimp only; split <;> simp [upd, em]
            | _ => simp [upd, em]
          rw [this]
          exact ho m hm
      exact ⟨hm, by rw [hp, hf]; exact hs⟩
  have all : ∀ (es : List Nat) (t : Sys β), (∀ i, i ≠ j → target (t.proc i) ≠ some q) →
      (t.proc j = .opening q l ∨ (∃ k, k ≤ l.length ∧ t.proc j = .writing q (l.drop k) k ∧ t.fs q = some (l.take k)) ∨ (t.proc j = .wrote ∧ t.fs q = some l)) →
      ((run t es).proc j).busy = false → (run t es).fs q = some l := by
    intro es
    induction es with
    | nil =>
      rintro t - (h | ⟨k, -, h, -⟩ | ⟨-, h⟩) hb
      · simp [run, h, Proc.busy] at hb
      · simp [run, h, Proc.busy] at hb
      · exact h
    | cons i es ih =>
      intro t ho hs hb
      obtain ⟨h1, h2⟩ := step t ho hs i
      exact ih (t.step i) h1 h2 hb
  exact all es' s hothers (.inl hj) hend

/-- The hypotheses are met by two generators with different options, of which the second gets its first step when the first has ended. -/
example :
    let os : List (Files.Options Int) := [⟨"m.dat", "band", 2, 2, 2, 7⟩, ⟨"m.dat", "band", 2, 2, 2, 8⟩]
    let w : Files.Disk Int := ⟨fun _ => none, fun _ => none, fun _ => true⟩
    let s := start true 0 0 os w
    let es := List.replicate 6 0
    (run s es).proc 1 = .opening "m.dat" [8, 8, 8, 8] ∧ target ((run s es).proc 0) ≠ some "m.dat" ∧
      ((run s (es ++ List.replicate 6 1)).proc 1).busy = false ∧ (run s (es ++ List.replicate 6 1)).fs "m.dat" = some [8, 8, 8, 8] := by
  decide +kernel

/-- The hypotheses are met by three programs, two of which write the same file with the same options, in a schedule in which the second empties the file when the first
has written an element. -/
example :
    let os : List (Files.Options Int) := [⟨"m.dat", "band", 2, 2, 1, 7⟩, ⟨"m.dat", "band", 2, 2, 1, 7⟩, ⟨"n.dat", "band", 1, 1, 1, 8⟩]
    let w : Files.Disk Int := ⟨fun _ => none, fun p => if p = "k.dat" then some [3] else none, fun _ => true⟩
    let s := run (start true 0 0 os w) [0, 0, 1, 2, 0, 1, 2, 0, 1, 1, 2, 0, 0, 1, 1]
    (∀ i, (s.proc i).busy = false) ∧ (∀ o ∈ os, ∀ o' ∈ os, o.file = o'.file → o = o') ∧
    s.fs "m.dat" = some [7, 0, 0, 7] ∧ s.fs "n.dat" = some [8] ∧ s.fs "k.dat" = some [3] := by
  refine ⟨fun i => ?_, by simp, by decide +kernel, by decide +kernel, by decide +kernel⟩
  match i with
  | 0 => decide +kernel
  | 1 => decide +kernel
  | 2 => decide +kernel
  | i + 3 => rfl

end BB.Together
