import Verif.Model.Saved
import Verif.Props.Serialize
import Mathlib.Data.List.TakeDrop

/-! C126: objects saved to files. -/

namespace BB.Saved

variable {β T : Type}

/-- What is assumed of the archive: it reads what it wrote, and reports a file that ends too early. -/
structure Faithful (enc : T → List β) (dec : List β → Option T) : Prop where
  round : ∀ x, dec (enc x) = some x
  short : ∀ x n, n < (enc x).length → dec ((enc x).take n) = none

/-- The files are what `a` says. -/
def Rel (enc : T → List β) (fs : String → Option (List β)) (a : String → File T) : Prop :=
  ∀ p, match a p with
    | .absent => fs p = none
    | .holds x => fs p = some (enc x)
    | .torn => ∃ x n, n < (enc x).length ∧ fs p = some ((enc x).take n)

/-- The program is not in the middle of a call. -/
def Sys.Free (s : Sys β) : Prop := (s.proc 0).busy = false

theorem Rel.exists {enc : T → List β} {fs : String → Option (List β)} {a : String → File T} (h : Rel enc fs a) (p : String) :
    (fs p).isSome = true ↔ a p ≠ .absent := by
  have := h p
  cases e : a p <;> rw [e] at this <;> simp only at this
  · simp [this]
  · simp [this]
  · obtain ⟨x, n, -, h⟩ := this; simp [h]

theorem Rel.put {enc : T → List β} {fs : String → Option (List β)} {a : String → File T} (h : Rel enc fs a) (p : String) {b : List β} {f : File T}
    (hf : match f with
    | .absent => False
    | .holds x => b = enc x
    | .torn => ∃ x n, n < (enc x).length ∧ b = (enc x).take n) : Rel enc (upd fs p (some b)) (put a p f) := by
  intro q
  by_cases e : q = p
  · subst e
    simp only [Saved.put, upd, if_true]
    cases f with
    | absent => exact hf.elim
    | holds x => simp only at hf ⊢; rw [hf]
    | torn =>
      obtain ⟨x, n, h1, h2⟩ := hf
      exact ⟨x, n, h1, by rw [h2]⟩
  · simp only [Saved.put, upd, if_neg e]
    exact h q

theorem Sys.steps_succ [Inhabited β] (s : Sys β) (n : Nat) : s.steps (n + 1) = (s.step 0).steps n := by
  simp [Sys.steps, Sys.run, List.replicate_succ, Sys.event]

theorem Sys.steps_add [Inhabited β] (s : Sys β) (n m : Nat) : s.steps (n + m) = (s.steps n).steps m := by
  induction n generalizing s with
  | zero => simp [Sys.steps, Sys.run]
  | succ n ih => rw [Nat.succ_add, Sys.steps_succ, Sys.steps_succ, ih]

theorem putAt_end [Inhabited β] (b : List β) (x : β) : putAt b b.length x = b ++ [x] := by
  simp [putAt]

/-- While the bytes are written the file holds those written so far. -/
theorem Sys.steps_writing [Inhabited β] (p : String) (done rest : List β) (s : Sys β) (hp : s.proc 0 = .writing p rest done.length)
    (hf : s.fs p = some done) (k : Nat) (hk : k ≤ rest.length) :
    (s.steps k).proc 0 = .writing p (rest.drop k) (done.length + k) ∧ (s.steps k).fs = upd s.fs p (some (done ++ rest.take k)) := by
  induction k generalizing s done rest with
  | zero =>
    refine ⟨by simpa [Sys.steps, Sys.run] using hp, ?_⟩
    funext q
    by_cases e : q = p
    · subst e; simp [Sys.steps, Sys.run, upd, hf]
    · simp [Sys.steps, Sys.run, upd, e]
  | succ k ih =>
    cases rest with
    | nil => simp at hk
    | cons x rest =>
      have hs : s.step 0 = { fs := upd s.fs p (some (done ++ [x])), proc := upd s.proc 0 (.writing p rest (done.length + 1)) } := by
        simp only [Sys.step, hp, hf, Option.getD_some, putAt_end]
      rw [Sys.steps_succ, hs]
      obtain ⟨h1, h2⟩ := ih (done ++ [x]) rest { fs := upd s.fs p (some (done ++ [x])), proc := upd s.proc 0 (.writing p rest (done.length + 1)) }
        (by simp [upd]) (by simp [upd]) (by simpa using hk)
      refine ⟨?_, ?_⟩
      · rw [h1]
        simp only [List.drop_succ_cons, List.length_append, List.length_singleton]
        congr 1
        omega
      · rw [h2]
        funext q
        by_cases e : q = p
        · simp [upd, e]
        · simp [upd, e]

/-- A program whose call has ended stays where it is. -/
theorem Sys.steps_idle [Inhabited β] (s : Sys β) (h : (s.proc 0).busy = false) (n : Nat) : s.steps n = s := by
  induction n with
  | zero => rfl
  | succ n ih =>
    rw [Sys.steps_succ]
    have : s.step 0 = s := by
      unfold Sys.step
      cases e : s.proc 0 <;> rw [e] at h <;> simp [Proc.busy] at h
    rw [this, ih]

theorem upd_same {α γ : Type} [DecidableEq α] (f : α → γ) (k : α) (v : γ) : upd f k v k = v := by simp [upd]

/-- One call, stopped after `n` steps or not. -/
theorem call_rel [Inhabited β] [DecidableEq T] {enc : T → List β} {dec : List β → Option T} (hF : Faithful enc dec) {s : Sys β} {a : String → File T}
    (hfree : s.Free) (h : Rel enc s.fs a) (c : Call T) (n : Nat) :
    (s.call enc dec c n).1.Free ∧
    (c.length enc ≤ n → Rel enc (s.call enc dec c n).1.fs (Saved.call a c).1 ∧ (s.call enc dec c n).2 = (Saved.call a c).2) ∧
    (∃ a', Stopped a c a' ∧ Rel enc (s.call enc dec c n).1.fs a') := by
  refine ⟨by simp [Sys.call, Sys.event, Sys.Free, upd, Proc.busy], ?_⟩
  have hb : s.event (.begin 0 (c.begin enc)) = { s with proc := upd s.proc 0 (c.begin enc) } := by
    have : (c.begin enc).isCall = true := by cases c <;> rfl
    have hf : (s.proc 0).busy = false := hfree
    simp only [Sys.event, hf, this]
    simp
  simp only [Sys.call, hb]
  cases c with
  | load p =>
    simp only [Call.begin, Call.length]
    have e1 : ({ s with proc := upd s.proc 0 (.read p) } : Sys β).step 0 =
        { s with proc := upd (upd s.proc 0 (.read p)) 0 (if (s.fs p).isSome then .reading p else .threw) } := by
      simp only [Sys.step, upd_same]
      split <;> rfl
    have fs_same : ∀ n, (({ s with proc := upd s.proc 0 (.read p) } : Sys β).steps n).fs = s.fs := by
      intro n
      match n with
      | 0 => rfl
      | 1 => rw [Sys.steps_succ, e1]; rfl
      | n + 2 =>
        rw [Sys.steps_succ, e1, Sys.steps_succ]
        by_cases hx : (s.fs p).isSome
        · rw [if_pos hx]
          simp only [Sys.step, upd_same]
          rw [Sys.steps_idle _ (by simp [upd, Proc.busy])]
        · rw [if_neg hx]
          simp only [Sys.step, upd_same]
          rw [Sys.steps_idle _ (by simp [upd, Proc.busy])]
    refine ⟨fun hn => ?_, a, Or.inl rfl, ?_⟩
    · have ha : (Saved.call a (Call.load p : Call T)).1 = a := by
        simp only [Saved.call]; split <;> rfl
      refine ⟨?_, ?_⟩
      · rw [ha]
        show Rel enc (Sys.fs _) a
        simp only [Sys.event]
        rw [fs_same]; exact h
      · obtain ⟨m, rfl⟩ : ∃ m, n = m + 2 := ⟨n - 2, by omega⟩
        rw [Sys.steps_succ, e1, Sys.steps_succ]
        have hp := h p
        cases e : a p with
        | absent =>
          rw [e] at hp
          simp only at hp
          simp only [hp, Option.isSome_none, Sys.step, upd_same, Saved.call, e]
          rw [Sys.steps_idle _ (by simp [upd, Proc.busy])]
          simp [upd, Proc.outcome]
        | holds x =>
          rw [e] at hp
          simp only at hp
          simp only [hp, Option.isSome_some, if_true, Sys.step, upd_same, Saved.call, e, Option.getD_some]
          rw [Sys.steps_idle _ (by simp [upd, Proc.busy])]
          simp [upd, Proc.outcome, hF.round]
        | torn =>
          rw [e] at hp
          obtain ⟨x, k, hk, hp⟩ := hp
          simp only [hp, Option.isSome_some, if_true, Sys.step, upd_same, Saved.call, e, Option.getD_some]
          rw [Sys.steps_idle _ (by simp [upd, Proc.busy])]
          simp [upd, Proc.outcome, hF.short x k hk]
    · simp only [Sys.event]
      rw [fs_same]; exact h
  | save p x ow =>
    simp only [Call.begin, Call.length]
    by_cases hc : (!ow && (s.fs p).isSome) = true
    · have hspec : (!ow && decide (a p ≠ .absent)) = true := by
        rw [Bool.and_eq_true] at hc ⊢
        exact ⟨hc.1, by rw [decide_eq_true_eq]; exact (h.exists p).1 hc.2⟩
      have e1 : ({ s with proc := upd s.proc 0 (.write p (enc x) ow) } : Sys β).step 0 =
          { s with proc := upd (upd s.proc 0 (.write p (enc x) ow)) 0 .threw } := by
        simp only [Sys.step, upd_same, hc, if_true]
      have hfs : ∀ n, (({ s with proc := upd s.proc 0 (.write p (enc x) ow) } : Sys β).steps n).fs = s.fs := by
        intro n
        match n with
        | 0 => rfl
        | n + 1 => rw [Sys.steps_succ, e1, Sys.steps_idle _ (by simp [upd, Proc.busy])]
      refine ⟨fun hn => ?_, a, Or.inl rfl, by simp only [Sys.event]; rw [hfs]; exact h⟩
      have hcall : Saved.call a (.save p x ow) = (a, .reported) := by
        simp only [Saved.call]; rw [if_pos hspec]
      rw [hcall]
      refine ⟨by simp only [Sys.event]; rw [hfs]; exact h, ?_⟩
      obtain ⟨m, rfl⟩ : ∃ m, n = m + 1 := ⟨n - 1, by omega⟩
      rw [Sys.steps_succ, e1, Sys.steps_idle _ (by simp [upd, Proc.busy])]
      simp [upd, Proc.outcome]
    · have hspec : ¬ (!ow && decide (a p ≠ .absent)) = true := by
        intro hh
        rw [Bool.and_eq_true, decide_eq_true_eq] at hh
        exact hc (by rw [Bool.and_eq_true]; exact ⟨hh.1, (h.exists p).2 hh.2⟩)
      have e1 : ({ s with proc := upd s.proc 0 (.write p (enc x) ow) } : Sys β).step 0 =
          { s with proc := upd (upd s.proc 0 (.write p (enc x) ow)) 0 (.opening p (enc x)) } := by
        simp only [Sys.step, upd_same]
        rw [if_neg hc]
      let s2 : Sys β := { fs := upd s.fs p (some []), proc := upd (upd (upd s.proc 0 (.write p (enc x) ow)) 0 (.opening p (enc x))) 0 (.writing p (enc x) 0) }
      have e2 : ({ s with proc := upd s.proc 0 (.write p (enc x) ow) } : Sys β).steps 2 = s2 := by
        rw [Sys.steps_succ, e1, Sys.steps_succ]
        simp only [Sys.step, upd_same]
        rfl
      have w := Sys.steps_writing p [] (enc x) s2 (by simp [s2, upd]) (by simp [s2, upd])
      have hput : ∀ k, k ≤ (enc x).length → Rel enc (s2.steps k).fs (if k = (enc x).length then put a p (.holds x) else put a p .torn) := by
        intro k hk
        rw [(w k hk).2]
        have e3 : upd s2.fs p (some ([] ++ (enc x).take k)) = upd s.fs p (some ((enc x).take k)) := by
          funext q
          by_cases e : q = p
          · simp [upd, e]
          · simp [upd, e, s2]
        rw [e3]
        split
        · rename_i hke
          exact h.put p (f := .holds x) (by rw [hke]; exact List.take_length)
        · rename_i hke
          exact h.put p (f := .torn) ⟨x, k, by omega, rfl⟩
      have hlast : ∀ m, (s2.steps ((enc x).length + (m + 1))).fs = (s2.steps (enc x).length).fs ∧
          (s2.steps ((enc x).length + (m + 1))).proc 0 = .wrote := by
        intro m
        rw [Sys.steps_add, Sys.steps_succ]
        have hw := (w (enc x).length le_rfl).1
        rw [List.drop_length] at hw
        have hst : (s2.steps (enc x).length).step 0 = { s2.steps (enc x).length with proc := upd (s2.steps (enc x).length).proc 0 .wrote } := by
          simp only [Sys.step, hw]
        rw [hst, Sys.steps_idle _ (by simp [upd, Proc.busy])]
        exact ⟨rfl, by simp [upd]⟩
      have hcall : Saved.call a (.save p x ow) = (put a p (.holds x), .saved) := by
        simp only [Saved.call]; rw [if_neg hspec]
      refine ⟨fun hn => ?_, ?_⟩
      · obtain ⟨m, rfl⟩ : ∃ m, n = 2 + ((enc x).length + (m + 1)) := ⟨n - (enc x).length - 3, by omega⟩
        rw [hcall, Sys.steps_add, e2]
        simp only [Sys.event]
        rw [(hlast m).1, (hlast m).2]
        refine ⟨?_, rfl⟩
        have := hput _ le_rfl
        rwa [if_pos rfl] at this
      · simp only [Sys.event]
        match n with
        | 0 => exact ⟨a, Or.inl rfl, h⟩
        | 1 => exact ⟨a, Or.inl rfl, by rw [Sys.steps_succ, e1]; exact h⟩
        | k + 2 =>
          rw [Nat.add_comm k 2, Sys.steps_add, e2]
          by_cases hk : k < (enc x).length
          · refine ⟨put a p .torn, Or.inr ⟨hspec, Or.inl rfl⟩, ?_⟩
            have := hput k (by omega)
            rwa [if_neg (by omega)] at this
          · refine ⟨put a p (.holds x), Or.inr ⟨hspec, Or.inr rfl⟩, ?_⟩
            have := hput _ (le_refl (enc x).length)
            rw [if_pos rfl] at this
            by_cases hke : k = (enc x).length
            · rw [hke]; exact this
            · obtain ⟨m, rfl⟩ : ∃ m, k = (enc x).length + (m + 1) := ⟨k - (enc x).length - 1, by omega⟩
              rw [(hlast m).1]; exact this

/-- C126, except that a stopped program can leave a torn file: for every history of calls of one program, stopped and started again at any
points, every call that was not stopped ends as the files say – saving succeeds, or is reported if the file exists and must not be
replaced; loading returns exactly the object the file holds, and reports a file that is absent or torn – and no file changes except
the ones that were saved. -/
theorem C126_histories_partial [Inhabited β] [DecidableEq T] {enc : T → List β} {dec : List β → Option T} (hF : Faithful enc dec) (s : Sys β)
    (a : String → File T) (hfree : s.Free) (h : Rel enc s.fs a) (hist : List (Call T × Option Nat)) :
    ∃ a', Allowed a (hist.map fun x => (x.1, x.2.isSome)) (s.history enc dec hist).1 a' ∧ Rel enc (s.history enc dec hist).2.fs a' := by
  induction hist generalizing s a with
  | nil => exact ⟨a, .nil a, h⟩
  | cons x hist ih =>
    obtain ⟨c, n⟩ := x
    cases n with
    | none =>
      obtain ⟨h1, h2, -⟩ := call_rel hF hfree h c (c.length enc)
      obtain ⟨h3, h4⟩ := h2 le_rfl
      obtain ⟨a', h5, h6⟩ := ih _ _ h1 h3
      refine ⟨a', ?_, ?_⟩
      · simp only [List.map_cons, Option.isSome_none, Sys.history]
        rw [h4]
        exact .ended h5
      · simp only [Sys.history]
        exact h6
    | some n =>
      obtain ⟨h1, -, a1, h2, h3⟩ := call_rel hF hfree h c n
      obtain ⟨a', h5, h6⟩ := ih _ _ h1 h3
      exact ⟨a', .stopped h2 h5, h6⟩

/-- C126: an object that was saved is what a later load returns, whatever happened before and whatever happened to other files since. -/
theorem C126_load_after_save [Inhabited β] [DecidableEq T] {enc : T → List β} {dec : List β → Option T} (hF : Faithful enc dec) (s : Sys β)
    (a : String → File T) (hfree : s.Free) (h : Rel enc s.fs a) (before since : List (Call T × Option Nat)) (p : String) (x : T)
    (hsince : ∀ q y ow n, (Call.save q y ow, n) ∈ since → q ≠ p) :
    (s.history enc dec (before ++ (.save p x true, none) :: since ++ [(.load p, none)])).1.getLast? = some (.loaded x) := by
  obtain ⟨a', hA, -⟩ := C126_histories_partial hF s a hfree h (before ++ (.save p x true, none) :: since ++ [(.load p, none)])
  rw [List.map_append, List.map_append, List.map_cons] at hA
  generalize (s.history enc dec (before ++ (.save p x true, none) :: since ++ [(.load p, none)])).1 = ends at hA
  -- the calls since then
  have k1 : ∀ (l : List (Call T × Option Nat)) (b : String → File T) (ends : List (End T)), (∀ q y ow n, (Call.save q y ow, n) ∈ l → q ≠ p) →
      b p = .holds x → Allowed b (l.map (fun x => (x.1, x.2.isSome)) ++ [(.load p, false)]) ends a' → ends.getLast? = some (.loaded x) := by
    intro l
    induction l with
    | nil =>
      intro b ends _ hb hA
      cases hA with
      | ended hA =>
        cases hA
        simp [Saved.call, hb]
    | cons y l ih =>
      intro b ends hl hb hA
      obtain ⟨c, n⟩ := y
      have hne : ∀ q y ow, c = Call.save q y ow → p ≠ q := fun q y ow e => (hl q y ow n (by rw [e]; simp)).symm
      cases n with
      | none =>
        cases hA with
        | ended hA =>
          have hb' : (Saved.call b c).1 p = .holds x := by
            cases c with
            | save q y ow =>
              simp only [Saved.call]
              split
              · exact hb
              · simp only [Saved.put, if_neg (hne q y ow rfl)]; exact hb
            | load q => simp only [Saved.call]; split <;> exact hb
          have := ih _ _ (fun q y ow n hm => hl q y ow n (by simp [hm])) hb' hA
          rw [List.getLast?_cons, this]
          rfl
      | some n =>
        cases hA with
        | stopped hS hA =>
          refine ih _ _ (fun q y ow n hm => hl q y ow n (by simp [hm])) ?_ hA
          rcases hS with rfl | hS
          · exact hb
          · cases c with
            | load q => exact hS.elim
            | save q y ow =>
              rcases hS.2 with rfl | rfl <;> simp only [Saved.put, if_neg (hne q y ow rfl)] <;> exact hb
  have k2 : ∀ (l : List (Call T × Option Nat)) (b : String → File T) (ends : List (End T)),
      Allowed b (l.map (fun x => (x.1, x.2.isSome)) ++ (.save p x true, false) :: (since.map (fun x => (x.1, x.2.isSome)) ++ [(.load p, false)])) ends a' →
      ends.getLast? = some (.loaded x) := by
    intro l
    induction l with
    | nil =>
      intro b ends hA
      cases hA with
      | ended hA =>
        rw [List.getLast?_cons, k1 since _ _ hsince (by simp [Saved.call, Saved.put]) hA]
        rfl
    | cons y l ih =>
      intro b ends hA
      obtain ⟨c, n⟩ := y
      cases n with
      | none =>
        cases hA with
        | ended hA => rw [List.getLast?_cons, ih _ _ hA]; rfl
      | some n =>
        cases hA with
        | stopped hS hA => exact ih _ _ hA
  exact k2 before a ends (by simpa using hA)

/-- C126, for every schedule of any number of programs that are stopped anywhere: a file that exists is never changed as long as all
calls that save to it ask not to replace it. -/
theorem C126_existing_file_is_kept [Inhabited β] (s : Sys β) (p : String) (b : List β) (hp : s.fs p = some b) (hidle : ∀ i, (s.proc i).busy = false)
    (es : List (Event β)) (hes : ∀ i bytes ow, Event.begin i (.write p bytes ow) ∈ es → ow = false) : (s.run es).fs p = some b := by
  -- nobody is about to write to `p`, except after a check that will fail
  suffices key : ∀ (es : List (Event β)) (s : Sys β), s.fs p = some b →
      (∀ i, (∀ bytes ow, s.proc i = .write p bytes ow → ow = false) ∧ (∀ bytes, s.proc i ≠ .opening p bytes) ∧ ∀ rest pos, s.proc i ≠ .writing p rest pos) →
      (∀ i bytes ow, Event.begin i (.write p bytes ow) ∈ es → ow = false) → (s.run es).fs p = some b by
    refine key es s hp (fun i => ?_) hes
    have := hidle i
    refine ⟨fun bytes ow e => ?_, fun bytes e => ?_, fun rest pos e => ?_⟩ <;> rw [e] at this <;> simp [Proc.busy] at this
  intro es
  induction es with
  | nil => intro s hp _ _; exact hp
  | cons e es ih =>
    intro s hp hinv hes
    have hset : ∀ (j : Nat) (P : Proc β), ((∀ bytes ow, P = .write p bytes ow → ow = false) ∧ (∀ bytes, P ≠ .opening p bytes) ∧ ∀ rest pos, P ≠ .writing p rest pos) →
        ∀ i, (∀ bytes ow, upd s.proc j P i = .write p bytes ow → ow = false) ∧ (∀ bytes, upd s.proc j P i ≠ .opening p bytes) ∧
          ∀ rest pos, upd s.proc j P i ≠ .writing p rest pos := by
      intro j P hP i
      by_cases e : i = j
      · subst e; simpa [upd] using hP
      · simpa [upd, e] using hinv i
    refine ih (s.event e) ?_ ?_ (fun i bytes ow hm => hes i bytes ow (by simp [hm]))
    · cases e with
      | begin i c => simp only [Sys.event]; split <;> exact hp
      | stop i => exact hp
      | step i =>
        simp only [Sys.event, Sys.step]
        have hi := hinv i
        split
        · split <;> exact hp
        · rename_i q bytes e
          have : q ≠ p := by rintro rfl; exact hi.2.1 bytes e
          simpa [upd, this.symm] using hp
        · rename_i q x rest pos e
          have : q ≠ p := by rintro rfl; exact hi.2.2 _ _ e
          simpa [upd, this.symm] using hp
        · exact hp
        · split <;> exact hp
        · exact hp
        · exact hp
    · cases e with
      | begin i c =>
        simp only [Sys.event]
        split
        · exact hinv
        · rename_i hc
          refine hset i c ⟨fun bytes ow e => hes i bytes ow (by simp [e]), fun bytes e => ?_, fun rest pos e => ?_⟩ <;>
            simp [e, Proc.isCall] at hc
      | stop i => exact hset i .idle ⟨nofun, nofun, nofun⟩
      | step i =>
        simp only [Sys.event, Sys.step]
        have hi := hinv i
        split
        · rename_i q bytes ow e
          split
          · exact hset i _ ⟨nofun, nofun, nofun⟩
          · rename_i hc
            refine hset i _ ⟨nofun, fun b' e' => ?_, nofun⟩
            injection e' with e1 e2
            subst e1
            rw [hi.1 bytes ow e, hp] at hc
            simp at hc
        · rename_i q bytes e
          refine hset i _ ⟨nofun, nofun, fun rest pos e' => ?_⟩
          injection e' with e1
          subst e1
          exact hi.2.1 _ e
        · rename_i q x rest pos e
          refine hset i _ ⟨nofun, nofun, fun rest pos e' => ?_⟩
          injection e' with e1
          subst e1
          exact hi.2.2 _ _ e
        · exact hset i _ ⟨nofun, nofun, nofun⟩
        · split
          · exact hset i _ ⟨nofun, nofun, nofun⟩
          · exact hset i _ ⟨nofun, nofun, nofun⟩
        · exact hset i _ ⟨nofun, nofun, nofun⟩
        · exact hinv

/-- C126, negative: saving is not atomic.  Whatever the file held, if the program is stopped after it opened the file, the old object is
gone and the new one is not there: loading reports an error. -/
theorem C126_stopped_save_loses_both [Inhabited β] [DecidableEq T] {enc : T → List β} {dec : List β → Option T} (hF : Faithful enc dec)
    (s : Sys β) (hfree : s.Free) (p : String) (old new : T) (hold : s.fs p = some (enc old)) (hnew : enc new ≠ []) :
    (s.history enc dec [(.load p, none), (.save p new true, some 2), (.load p, none)]).1 = [.loaded old, .reported] := by
  have hd : dec [] = none := hF.short new 0 (List.length_pos_iff.2 hnew)
  have hf : (s.proc 0).busy = false := hfree
  have st : ∀ (s : Sys β) (n : Nat), s.steps (n + 1) = (s.step 0).steps n := Sys.steps_succ
  have s0 : ∀ s : Sys β, s.steps 0 = s := fun _ => rfl
  have hi : (Proc.idle : Proc β).busy = false := rfl
  simp [Sys.history, Sys.call, Call.length, Sys.event, Call.begin, Proc.isCall, hf, st, s0, Sys.step, upd, hold, Proc.outcome, hF.round, hi, hd]

/-- C126, negative: the check and the opening of the file are two steps.  Two programs that both ask not to replace a file both succeed,
and the object of the first is gone. -/
theorem C126_race_replaces_file :
    let s : Sys Nat := ⟨fun _ => none, fun _ => .idle⟩
    let t := s.run [.begin 0 (.write "f" [1, 2] false), .begin 1 (.write "f" [3] false), .step 0, .step 1, .step 0, .step 0, .step 0, .step 0,
      .step 1, .step 1, .step 1]
    t.proc 0 = .wrote ∧ t.proc 1 = .wrote ∧ t.fs "f" = some [3] := by
  decide +kernel

/-- C126, negative: two programs that save to the same file at the same time can leave a mixture of both objects. -/
theorem C126_race_mixes_objects :
    let s : Sys Nat := ⟨fun _ => none, fun _ => .idle⟩
    let t := s.run [.begin 0 (.write "f" [1, 2, 3] true), .begin 1 (.write "f" [4, 5] true), .step 0, .step 1, .step 0, .step 1, .step 0, .step 0,
      .step 1, .step 1, .step 0, .step 0, .step 1]
    t.proc 0 = .wrote ∧ t.proc 1 = .wrote ∧ t.fs "f" = some [4, 5, 3] := by
  decide +kernel

/-! ### The library's own archives -/

/-- Column-major dense matrices all of whose elements are there. -/
abbrev Complete (R : Type) := { A : Dense R // A.ori = .col ∧ ∃ r c f, A.Is r c f }

/-- `oa << A` (`Dense.save`). -/
def encDense {R : Type} (A : Complete R) : Archive R :=
  match A.1.save with
  | .ok ar => ar
  | .error _ => []

open Classical in
/-- `ia >> B` into a default constructed matrix (`Dense.load`). -/
noncomputable def decDense {R : Type} (ar : Archive R) : Option (Complete R) :=
  match (Dense.empty .col : Dense R).load ar with
  | (B, .ok _) => if h : B.ori = .col ∧ ∃ r c f, B.Is r c f then some ⟨B, h⟩ else none
  | (_, .error _) => none

/-- C126: the archive of a dense matrix is as the other theorems of C126 assume (C43). -/
theorem C126_dense_archive {R : Type} : Faithful (encDense (R := R)) decDense where
  round := by
    intro A
    obtain ⟨r, c, f, hA⟩ := A.2.2
    obtain ⟨ar, h1, h2⟩ := Dense.load_save (B := Dense.empty .col) hA []
    have e : ({ A.1 with ori := (Dense.empty .col : Dense R).ori } : Dense R) = A.1 := by
      obtain ⟨⟨o, d, b⟩, ho, -⟩ := A
      have ho' : o = .col := ho
      subst ho'
      rfl
    rw [List.append_nil, e] at h2
    simp only [encDense, h1, decDense, h2]
    rw [dif_pos A.2]
  short := by
    intro A n hn
    obtain ⟨r, c, f, hA⟩ := A.2.2
    obtain ⟨ar, h1, -⟩ := Dense.load_save (B := Dense.empty .col) hA []
    have he : encDense A = ar := by simp [encDense, h1]
    rw [he] at hn ⊢
    have := C43_truncated_throws A.1 (Dense.empty .col) r c f hA ar h1 n hn
    simp only [decDense]
    generalize (Dense.empty .col : Dense R).load (ar.take n) = q at this
    obtain ⟨B, q⟩ := q
    simp only at this
    rw [this]

instance : Inhabited (Tok R) := ⟨.size 0⟩

example : ({ fs := fun _ => none, proc := fun _ => .idle } : Sys (Tok Int)).Free ∧
    Rel (encDense (R := Int)) (fun _ => none) (fun _ => .absent) := ⟨rfl, fun _ => rfl⟩

/-- A matrix, and that its archive is not empty. -/
example : ∃ A : Complete Int, encDense A ≠ [] :=
  ⟨⟨Dense.ofFn .col 2 2 (fun i j => (i + j : Int)), rfl, 2, 2, _, Dense.ofFn_is .col 2 2 _⟩, by
    simp only [encDense]
    obtain ⟨ar, h1, h2⟩ := Dense.load_save (B := Dense.empty .col) (Dense.ofFn_is .col 2 2 (fun i j => (i + j : Int))) []
    rw [h1]
    rintro rfl
    simp only [List.nil_append, Dense.load] at h2
    cases congrArg Prod.snd h2⟩

end BB.Saved
