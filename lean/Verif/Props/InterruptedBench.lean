import Verif.Model.InterruptedBench
import Verif.Props.Interrupted
import Verif.Props.BenchMain
import Verif.Props.NormSum

/-! C139: a benchmark program that is stopped while it writes differences. -/

namespace BB.Interrupted

open Bench (With Routines Action Out)
open BenchMain (diffName)

variable {β F : Type}

/-! ### Several files, one after the other -/

/-- The files after complete saves. -/
def done (writable : String → Bool) (W : List (String × List β)) (fs : String → Option (List β)) : String → Option (List β) :=
  W.foldl (fun fs x => if writable x.1 then fun q => if q = x.1 then some x.2 else fs q else fs) fs

theorem done_append (writable : String → Bool) (W V : List (String × List β)) (fs : String → Option (List β)) :
    done writable (W ++ V) fs = done writable V (done writable W fs) := by simp [done]

theorem done_other (writable : String → Bool) (W : List (String × List β)) (fs : String → Option (List β)) (q : String) (h : ∀ x ∈ W, x.1 ≠ q) :
    done writable W fs q = fs q := by
  induction W generalizing fs with
  | nil => rfl
  | cons x W ih =>
    have : done writable (x :: W) fs = done writable W (if writable x.1 then fun q => if q = x.1 then some x.2 else fs q else fs) := rfl
    rw [this, ih _ (fun y hy => h y (by simp [hy]))]
    split
    · simp [(h x (by simp)).symm]
    · rfl

theorem done_unwritable (writable : String → Bool) (W : List (String × List β)) (fs : String → Option (List β)) (q : String) (h : writable q = false) :
    done writable W fs q = fs q := by
  induction W generalizing fs with
  | nil => rfl
  | cons x W ih =>
    have : done writable (x :: W) fs = done writable W (if writable x.1 then fun q => if q = x.1 then some x.2 else fs q else fs) := rfl
    rw [this, ih]
    split
    · rename_i hx
      have : q ≠ x.1 := by rintro rfl; rw [h] at hx; cases hx
      simp [this]
    · rfl

/-- `save` with lists. -/
theorem after_save_list (writable : String → Bool) (p : String) (l : List β) (k : Nat) (fs : String → Option (List β)) :
    after writable [] (fun l v => l ++ [v]) (save p l) k fs =
      match k with
      | 0 => fs
      | m + 1 => if writable p then fun q => if q = p then some (l.take m) else fs q else fs :=
  after_save writable [] (fun l v => l ++ [v]) id rfl (fun _ _ => rfl) p l k fs

theorem after_all (writable : String → Bool) (W : List (String × List β)) (k : Nat) (hk : (W.flatMap fun x => save x.1 x.2).length ≤ k) (fs : String → Option (List β)) :
    after writable [] (fun l v => l ++ [v]) (W.flatMap fun x => save x.1 x.2) k fs = done writable W fs := by
  unfold after
  rw [List.take_of_length_le hk]
  clear hk
  induction W generalizing fs with
  | nil => rfl
  | cons x W ih =>
    rw [List.flatMap_cons, List.foldl_append, ih]
    have := after_save_list writable x.1 x.2 (x.2.length + 1) fs
    unfold after at this
    rw [List.take_of_length_le (by simp [save])] at this
    rw [this]
    simp [done]

/-- A list of saves that is stopped: some are complete, and at most one more is begun. -/
theorem after_saves (writable : String → Bool) (W : List (String × List β)) (k : Nat) (fs : String → Option (List β)) :
    after writable [] (fun l v => l ++ [v]) (W.flatMap fun x => save x.1 x.2) k fs = fs ∨
    ∃ W1 p l W2 m, W = W1 ++ (p, l) :: W2 ∧ after writable [] (fun l v => l ++ [v]) (W.flatMap fun x => save x.1 x.2) k fs =
      if writable p then fun q => if q = p then some (l.take m) else done writable W1 fs q else done writable W1 fs := by
  induction W generalizing fs k with
  | nil => exact .inl (by simp [after])
  | cons x W ih =>
    have hs : (save x.1 x.2).length = x.2.length + 1 := by simp [save]
    have split : after writable [] (fun l v => l ++ [v]) ((x :: W).flatMap fun x => save x.1 x.2) k fs =
        after writable [] (fun l v => l ++ [v]) (W.flatMap fun x => save x.1 x.2) (k - (x.2.length + 1))
          (after writable [] (fun l v => l ++ [v]) (save x.1 x.2) k fs) := by
      simp only [after, List.flatMap_cons, List.take_append, List.foldl_append, hs]
    rw [split]
    by_cases hk : k ≤ x.2.length + 1
    · have e : k - (x.2.length + 1) = 0 := by omega
      rw [e, after_save_list]
      cases k with
      | zero => exact .inl (by simp [after])
      | succ m => exact .inr ⟨[], x.1, x.2, W, m, rfl, by simp [after, done]⟩
    · have full : after writable [] (fun l v => l ++ [v]) (save x.1 x.2) k fs = done writable [x] fs := by
        rw [after_save_list]
        obtain ⟨m, rfl⟩ : ∃ m, k = m + 1 := ⟨k - 1, by omega⟩
        simp only [List.take_of_length_le (show x.2.length ≤ m by omega)]
        rfl
      rw [full]
      rcases ih (k - (x.2.length + 1)) (done writable [x] fs) with h | ⟨W1, p, l, W2, m, rfl, h⟩
      · refine .inr ⟨[], x.1, x.2, W, x.2.length, rfl, ?_⟩
        rw [h, List.take_of_length_le (Nat.le_refl _)]
        rfl
      · refine .inr ⟨x :: W1, p, l, W2, m, rfl, ?_⟩
        rw [h, ← done_append]
        rfl

/-- The same for saves to numbered files in order. -/
theorem after_ordered (writable : String → Bool) (name : Nat → String) (hn : ∀ i j, name i = name j → i = j) (W : List (Nat × List β))
    (hW : W.Pairwise fun x y => x.1 ≤ y.1) (k : Nat) (fs : String → Option (List β)) :
    ∃ t : Nat, ∃ fs', fs' = after writable [] (fun l v => l ++ [v]) ((W.map fun x => (name x.1, x.2)).flatMap fun x => save x.1 x.2) k fs ∧
      (∀ q, (∀ x ∈ W, q ≠ name x.1) ∨ writable q = false → fs' q = fs q) ∧ (∀ i, t < i → fs' (name i) = fs (name i)) ∧
      (∀ i, i < t → fs' (name i) = done writable (W.map fun x => (name x.1, x.2)) fs (name i)) ∧
      (fs' (name t) = fs (name t) ∨ ∃ x ∈ W, x.1 = t ∧ ∃ m, fs' (name t) = some (x.2.take m)) := by
  rcases after_saves writable (W.map fun x => (name x.1, x.2)) k fs with h | ⟨W1, p, l, W2, m, hs, h⟩
  · exact ⟨0, _, rfl, fun q _ => by rw [h], fun i _ => by rw [h], fun i hi => by omega, .inl (by rw [h])⟩
  · obtain ⟨V1, V', rfl, rfl, h2⟩ := List.map_eq_append_iff.1 hs
    obtain ⟨x, V2, rfl, h3, rfl⟩ := List.map_eq_cons_iff.1 h2
    obtain ⟨rfl, rfl⟩ := Prod.mk.inj h3
    have hV := List.pairwise_append.1 hW
    refine ⟨x.1, _, rfl, ?_, ?_, ?_, ?_⟩
    · rintro q (hq | hq)
      · rw [h]
        split
        · simp only [if_neg (hq x (by simp))]
          exact done_other _ _ _ _ (by
            intro y hy; obtain ⟨z, hz, rfl⟩ := List.mem_map.1 hy; exact (hq z (by simp [hz])).symm)
        · exact done_other _ _ _ _ (by
            intro y hy; obtain ⟨z, hz, rfl⟩ := List.mem_map.1 hy; exact (hq z (by simp [hz])).symm)
      · rw [h]
        split
        · rename_i hw
          have : q ≠ name x.1 := by rintro rfl; rw [hq] at hw; cases hw
          simp only [if_neg this]
          exact done_unwritable _ _ _ _ hq
        · exact done_unwritable _ _ _ _ hq
    · intro i hi
      have o : done writable (V1.map fun x => (name x.1, x.2)) fs (name i) = fs (name i) := by
        refine done_other _ _ _ _ ?_
        intro y hy; obtain ⟨z, hz, rfl⟩ := List.mem_map.1 hy
        intro e
        have := hn _ _ e
        have := hV.2.2 z hz x (by simp)
        omega
      rw [h]
      split
      · have : name i ≠ name x.1 := by intro e; have := hn _ _ e; omega
        simp only [if_neg this, o]
      · exact o
    · intro i hi
      have o : done writable ((V1 ++ x :: V2).map fun x => (name x.1, x.2)) fs (name i) = done writable (V1.map fun x => (name x.1, x.2)) fs (name i) := by
        rw [List.map_append, done_append]
        refine done_other _ _ _ _ ?_
        intro y hy; obtain ⟨z, hz, rfl⟩ := List.mem_map.1 hy
        intro e
        have := hn _ _ e
        rcases List.mem_cons.1 hz with rfl | hz
        · omega
        · have := (List.pairwise_cons.1 hV.2.1).1 z hz
          omega
      rw [h, o]
      split
      · have : name i ≠ name x.1 := by intro e; have := hn _ _ e; omega
        simp only [if_neg this]
      · rfl
    · rw [h]
      split
      · exact .inr ⟨x, by simp, rfl, m, by simp⟩
      · rename_i hw
        exact .inl (done_unwritable _ _ _ _ (by simpa using hw))


/-! ### The differences of the program -/

theorem dump_total {R : Type} {b : Buf R} (h : ¬ ∃ p : Nat, b[p]? = some none) : ∃ l, Files.dump b 0 b.length = .ok l := by
  have : ∀ n p, p + n ≤ b.length → ∃ l, Files.dump b p n = .ok l := by
    intro n
    induction n with
    | zero => exact fun p _ => ⟨[], rfl⟩
    | succ n ih =>
      intro p hp
      obtain ⟨l, hl⟩ := ih (p + 1) (by omega)
      have hlt : p < b.length := by omega
      obtain ⟨v, hv⟩ : ∃ v, b[p]? = some (some v) := by
        rw [List.getElem?_eq_getElem hlt]
        cases e : b[p] with
        | none => exact absurd ⟨p, by rw [List.getElem?_eq_getElem hlt, e]⟩ h
        | some v => exact ⟨v, rfl⟩
      refine ⟨v :: l, ?_⟩
      simp only [Files.dump, Buf.read, hv, hl]
      rfl
  exact this b.length 0 (by omega)

/-- Specification: `l` is the content of the difference of the results of an action other than the first and the first one, for the factors
number `t` of the configuration. -/
def Difference {F : Type} [Zero F] [One F] (asserts : Bool) (w : With) (rt : Routines ℝ F) (block : Action ℝ) (reps : Nat) (c : BenchMain.Config ℝ)
    (d : Files.Disk ℝ) (t : Nat) (l : List ℝ) : Prop :=
  ∃ sets la lb A B first other refC C D, Provider.provider asserts (BenchMain.resolve d c.matrices) = .ok sets ∧ sets "A" = some la ∧ sets "B" = some lb ∧
    la[t]? = some A ∧ lb[t]? = some B ∧ (Bench.provide w rt block reps c.actions)[0]? = some first ∧
    other ∈ (Bench.provide w rt block reps c.actions).drop 1 ∧ first.execute A B = .ok refC ∧ other.execute A B = .ok C ∧
    Dense.binop (· - ·) C refC (Dense.empty .col) = .ok D ∧ Files.dump D.data 0 D.data.length = .ok l

theorem compare_ok {wd : Bool} {i : Nat} {A B refC : Dense ℝ} {a : Action ℝ} {o o' : Out} (h : Bench.compare wd i A B refC a o = .ok o') :
    ∃ C D l, a.execute A B = .ok C ∧ Dense.binop (· - ·) C refC (Dense.empty .col) = .ok D ∧ Files.dump D.data 0 D.data.length = .ok l ∧
      o'.files = if wd then fun k => if k = i then some D.data else o.files k else o.files := by
  unfold Bench.compare at h
  obtain ⟨C, hC, h⟩ := Own.bind_eq_ok h
  obtain ⟨D, hD, h⟩ := Own.bind_eq_ok h
  obtain ⟨x, hx, h⟩ := Own.bind_eq_ok h
  obtain ⟨y, hy, h⟩ := Own.bind_eq_ok h
  cases h
  obtain ⟨l, hl⟩ := dump_total (b := D.data) (by
    intro hn
    rw [SMat.norm, normBuf_init _ _ hn] at hx
    cases hx)
  exact ⟨C, D, l, hC, hD, hl, rfl⟩

/-- `files` after the writes `W`. -/
def filed (W : List (Nat × Buf ℝ)) (files : Nat → Option (Buf ℝ)) : Nat → Option (Buf ℝ) :=
  W.foldl (fun f x k => if k = x.1 then some x.2 else f k) files

theorem filed_append (W V : List (Nat × Buf ℝ)) (files : Nat → Option (Buf ℝ)) : filed (W ++ V) files = filed V (filed W files) := by simp [filed]

theorem othersDiffs_spec (wd : Bool) (i : Nat) (A B refC : Dense ℝ) (as : List (Action ℝ)) (o : Out) :
    (Bench.others wd i A B refC as o).1.files = filed (othersDiffs wd i A B refC as o) o.files ∧
    ∀ x ∈ othersDiffs wd i A B refC as o, x.1 = i ∧ ∃ l, Files.dump x.2 0 x.2.length = .ok l ∧
      ∃ a ∈ as, ∃ C D, a.execute A B = .ok C ∧ Dense.binop (· - ·) C refC (Dense.empty .col) = .ok D ∧ x.2 = D.data := by
  induction as generalizing o with
  | nil => exact ⟨rfl, by simp [othersDiffs]⟩
  | cons a as ih =>
    unfold Bench.others othersDiffs
    cases h : Bench.compare wd i A B refC a o with
    | error e => exact ⟨rfl, by simp⟩
    | ok o' =>
      obtain ⟨C, D, l, hC, hD, hl, hf⟩ := compare_ok h
      obtain ⟨ih1, ih2⟩ := ih o'
      dsimp only
      constructor
      · rw [ih1, filed_append]
        congr 1
        rw [hf]
        cases wd
        · rfl
        · simp [filed]
      · intro x hx
        rcases List.mem_append.1 hx with hx | hx
        · cases wd
          · simp at hx
          · simp only [if_true] at hf hx
            rw [hf] at hx
            obtain rfl : x = (i, D.data) := by simpa using hx
            exact ⟨rfl, l, hl, a, by simp, C, D, hC, hD, rfl⟩
        · obtain ⟨h1, l', h2, b, hb, h3⟩ := ih2 x hx
          exact ⟨h1, l', h2, b, by simp [hb], h3⟩

theorem matricesDiffs_spec (wd : Bool) (a : Action ℝ) (as : List (Action ℝ)) (la lb : List (Dense ℝ)) (i : Nat) (o : Out) :
    (Bench.matrices wd a as i la lb o).1.files = filed (matricesDiffs wd a as i la lb o) o.files ∧
    (matricesDiffs wd a as i la lb o).Pairwise (fun x y => x.1 ≤ y.1) ∧
    ∀ x ∈ matricesDiffs wd a as i la lb o, i ≤ x.1 ∧ ∃ l, Files.dump x.2 0 x.2.length = .ok l ∧
      ∃ A B refC, la[x.1 - i]? = some A ∧ lb[x.1 - i]? = some B ∧ a.execute A B = .ok refC ∧
      ∃ b ∈ as, ∃ C D, b.execute A B = .ok C ∧ Dense.binop (· - ·) C refC (Dense.empty .col) = .ok D ∧ x.2 = D.data := by
  induction la generalizing i lb o with
  | nil => exact ⟨by simp [Bench.matrices, matricesDiffs, filed], by simp [matricesDiffs], by simp [matricesDiffs]⟩
  | cons A la ih =>
    cases lb with
    | nil => exact ⟨by simp [Bench.matrices, matricesDiffs, filed], by simp [matricesDiffs], by simp [matricesDiffs]⟩
    | cons B lb =>
      unfold Bench.matrices matricesDiffs Bench.matrixStep
      cases hr : a.execute A B with
      | error e => exact ⟨rfl, by simp, by simp⟩
      | ok refC =>
        dsimp only
        obtain ⟨s1, s2⟩ := othersDiffs_spec wd i A B refC as { o with rows := o.rows ++ [⟨i, a.name, 0, 0⟩] }
        generalize othersDiffs wd i A B refC as { o with rows := o.rows ++ [⟨i, a.name, 0, 0⟩] } = W at s1 s2
        have here : ∀ x ∈ W, i ≤ x.1 ∧ ∃ l, Files.dump x.2 0 x.2.length = .ok l ∧
            ∃ A' B' refC, (A :: la)[x.1 - i]? = some A' ∧ (B :: lb)[x.1 - i]? = some B' ∧ a.execute A' B' = .ok refC ∧
            ∃ b ∈ as, ∃ C D, b.execute A' B' = .ok C ∧ Dense.binop (· - ·) C refC (Dense.empty .col) = .ok D ∧ x.2 = D.data := by
          intro x hx
          obtain ⟨h1, l, h2, b, hb, C, D, h3⟩ := s2 x hx
          exact ⟨by omega, l, h2, A, B, refC, by simp [h1], by simp [h1], hr, b, hb, C, D, h3⟩
        have flat : W.Pairwise (fun x y => x.1 ≤ y.1) := by
          refine List.pairwise_iff_forall_sublist.2 fun {x y} hxy => ?_
          have hx := (s2 x (hxy.subset (by simp))).1
          have hy := (s2 y (hxy.subset (by simp))).1
          omega
        rcases ho : Bench.others wd i A B refC as { o with rows := o.rows ++ [⟨i, a.name, 0, 0⟩] } with ⟨o', e | u⟩
        · rw [ho] at s1
          simp only [List.append_nil]
          exact ⟨s1, flat, here⟩
        · rw [ho] at s1
          obtain ⟨i1, i2, i3⟩ := ih lb (i + 1) o'
          dsimp only at s1 ⊢
          refine ⟨by rw [i1, filed_append, s1], ?_, ?_⟩
          · refine List.pairwise_append.2 ⟨flat, i2, fun x hx y hy => ?_⟩
            have := (s2 x hx).1
            have := (i3 y hy).1
            omega
          · intro x hx
            rcases List.mem_append.1 hx with hx | hx
            · exact here x hx
            · obtain ⟨h1, l, h2, A', B', refC', h3, h4, h5⟩ := i3 x hx
              have e : x.1 - i = (x.1 - (i + 1)) + 1 := by omega
              exact ⟨by omega, l, h2, A', B', refC', by rw [e]; simpa using h3, by rw [e]; simpa using h4, h5⟩


/-- The elements of a buffer. -/
def elems (b : Buf ℝ) : List ℝ := (Files.dump b 0 b.length).toOption.getD []

theorem storeAll_at (files : Nat → Option (Buf ℝ)) (d : Files.Disk ℝ) (n i : Nat) (hi : i < n) (hw : d.writable (diffName i) = true)
    (h : ∀ b, files i = some b → ∃ l, Files.dump b 0 b.length = .ok l) :
    (BenchMain.storeAll files d n).bin (diffName i) = match files i with
      | some b => some (elems b)
      | none => d.bin (diffName i) := by
  induction n with
  | zero => omega
  | succ n ih =>
    rw [BenchMain.storeAll]
    rcases Nat.lt_succ_iff_lt_or_eq.1 hi with hi | rfl
    · rw [← ih hi]
      split
      · exact (BenchMain.store_frame _ _ _).2.2 _ (.inl fun h => absurd (BenchMain.diffName_inj h) (by omega))
      · rfl
    · cases hb : files i with
      | none => exact (BenchMain.storeAll_frame files d i).2.2 _ (.inl fun j hj e => absurd (BenchMain.diffName_inj e) (by omega))
      | some b =>
        obtain ⟨l, hl⟩ := h b hb
        simp only [BenchMain.store, hl, (BenchMain.storeAll_frame files d i).2.1, hw, if_true, elems]
        rfl

theorem storeAll_done (W : List (Nat × Buf ℝ)) (d : Files.Disk ℝ) (n : Nat) (hW : ∀ x ∈ W, x.1 < n ∧ ∃ l, Files.dump x.2 0 x.2.length = .ok l) :
    (BenchMain.storeAll (filed W fun _ => none) d n).bin = done d.writable (W.map fun x => (diffName x.1, elems x.2)) d.bin := by
  have src : ∀ W : List (Nat × Buf ℝ), ∀ i b, filed W (fun _ => none) i = some b → ∃ x ∈ W, x.1 = i ∧ x.2 = b := by
    intro W
    induction W using List.reverseRecOn with
    | nil => intro i b h; cases h
    | append_singleton W x ih =>
      intro i b h
      rw [filed_append] at h
      by_cases e : i = x.1
      · refine ⟨x, by simp, e.symm, ?_⟩
        simpa [filed, e] using h
      · obtain ⟨y, hy, h⟩ := ih i b (by simpa [filed, e] using h)
        exact ⟨y, by simp [hy], h⟩
  have val : ∀ W : List (Nat × Buf ℝ), ∀ i, d.writable (diffName i) = true →
      done d.writable (W.map fun x => (diffName x.1, elems x.2)) d.bin (diffName i) = match filed W (fun _ => none) i with
        | some b => some (elems b)
        | none => d.bin (diffName i) := by
    intro W i hw
    induction W using List.reverseRecOn with
    | nil => rfl
    | append_singleton W x ih =>
      rw [List.map_append, done_append, filed_append]
      by_cases e : i = x.1
      · subst e
        simp [done, filed, hw]
      · have ne : diffName i ≠ diffName x.1 := fun h => e (BenchMain.diffName_inj h)
        have r : filed [x] (filed W fun _ => none) i = filed W (fun _ => none) i := by simp [filed, e]
        rw [r, ← ih]
        simp only [done, List.map_cons, List.map_nil, List.foldl_cons, List.foldl_nil]
        split
        · simp [ne]
        · rfl
  funext q
  by_cases hq : (∃ i, i < n ∧ q = diffName i) ∧ d.writable q = true
  · obtain ⟨⟨i, hi, rfl⟩, hw⟩ := hq
    rw [val W i hw, storeAll_at _ d n i hi hw]
    intro b hb
    obtain ⟨x, hx, -, rfl⟩ := src W i b hb
    exact (hW x hx).2
  · by_cases hw : d.writable q = true
    · have hq : ∀ i, i < n → q ≠ diffName i := fun i hi e => hq ⟨⟨i, hi, e⟩, hw⟩
      rw [(BenchMain.storeAll_frame _ d n).2.2 q (.inl hq), done_other]
      intro x hx
      obtain ⟨y, hy, rfl⟩ := List.mem_map.1 hx
      exact (hq y.1 (hW y hy).1).symm
    · have hw : d.writable q = false := by simpa using hw
      rw [(BenchMain.storeAll_frame _ d n).2.2 q (.inr hw), done_unwritable _ _ _ _ hw]

section bench

variable {F : Type} [Zero F] [One F] (asserts : Bool) (w : With) (rt : Routines ℝ F) (block : Action ℝ) (reps : Nat) (c : BenchMain.Config ℝ) (d : Files.Disk ℝ)

/-- What is known about the differences of a run. -/
theorem benchDiffs_spec :
    (BenchMain.main asserts w rt block reps c d).disk =
      { d with bin := done d.writable ((benchDiffs asserts w rt block reps c d).map fun x => (diffName x.1, elems x.2)) d.bin } ∧
    (benchDiffs asserts w rt block reps c d).Pairwise (fun x y => x.1 ≤ y.1) ∧
    ∀ x ∈ benchDiffs asserts w rt block reps c d, Files.dump x.2 0 x.2.length = .ok (elems x.2) ∧
      Difference asserts w rt block reps c d x.1 (elems x.2) := by
  unfold BenchMain.main benchDiffs Difference
  rcases Provider.provider asserts (BenchMain.resolve d c.matrices) with e | sets
  · exact ⟨rfl, by simp, by simp⟩
  have none : ∀ n, BenchMain.storeAll (fun _ => none) d n = { d with bin := done d.writable (([] : List (Nat × Buf ℝ)).map fun x => (diffName x.1, elems x.2)) d.bin } :=
    fun n => BenchMain.storeAll_none _ d n fun _ _ => rfl
  dsimp only
  unfold Bench.run Provider.Sets.get Provider.Sets.at'
  rcases hA : sets "A" with _ | la
  · exact ⟨none _, by simp, by simp⟩
  rcases hB : sets "B" with _ | lb
  · exact ⟨none _, by simp, by simp⟩
  dsimp only [Option.getD_some]
  unfold Bench.runOn
  rcases hP : Bench.provide w rt block reps c.actions with _ | ⟨a, as⟩
  · refine ⟨?_, by simp, by simp⟩
    split
    · exact none _
    · split <;> exact none _
  · by_cases h0 : la.length = 0
    · simp only [h0, if_true, true_or]
      exact ⟨none _, by simp, by simp⟩
    · by_cases h1 : la.length = lb.length
      · have hc : ¬ (la.length = 0 ∨ la.length ≠ lb.length) := by omega
        rw [if_neg h0, if_neg (by simpa using h1)]
        dsimp only
        rw [if_neg hc]
        obtain ⟨s1, s2, s3⟩ := matricesDiffs_spec c.writeDiff a as la lb 0 ⟨[], fun _ => .none⟩
        have lt : ∀ x ∈ matricesDiffs c.writeDiff a as 0 la lb ⟨[], fun _ => .none⟩, x.1 < la.length := by
          intro x hx
          obtain ⟨-, -, -, A, B, refC, hA', -⟩ := s3 x hx
          exact (List.getElem?_eq_some_iff.1 hA').1
        refine ⟨?_, s2, ?_⟩
        · rw [s1]
          have fr := BenchMain.storeAll_frame (filed (matricesDiffs c.writeDiff a as 0 la lb ⟨[], fun _ => .none⟩) fun _ => .none) d la.length
          have := storeAll_done (matricesDiffs c.writeDiff a as 0 la lb ⟨[], fun _ => .none⟩) d la.length
            (fun x hx => ⟨lt x hx, (s3 x hx).2.elim fun l h => ⟨l, h.1⟩⟩)
          rw [← this]
          generalize BenchMain.storeAll _ d la.length = e at fr
          obtain ⟨f1, f2, -⟩ := fr
          cases e; cases d
          simp only at f1 f2
          subst f1 f2
          rfl
        · intro x hx
          obtain ⟨-, l, hl, A, B, refC, hA', hB', hr, b, hb, C, D, hC, hD, hx2⟩ := s3 x hx
          have he : elems x.2 = l := by unfold elems; rw [hl]; rfl
          refine ⟨by rw [he, hl], sets, la, lb, A, B, a, b, refC, C, D, rfl, hA, hB, by simpa using hA', by simpa using hB', rfl, by simpa using hb, hr, hC, hD, ?_⟩
          rw [he, ← hx2, hl]
      · simp only [h0, if_false, h1, if_true, ne_eq, not_false_iff, or_true]
        exact ⟨none _, by simp, by simp⟩

theorem benchSteps_eq :
    (benchDiffs asserts w rt block reps c d).flatMap diffSteps =
      (((benchDiffs asserts w rt block reps c d).map fun x => (x.1, elems x.2)).map fun x => (diffName x.1, x.2)).flatMap fun x => save x.1 x.2 := by
  have h := (benchDiffs_spec asserts w rt block reps c d).2.2
  generalize benchDiffs asserts w rt block reps c d = W at h
  induction W with
  | nil => rfl
  | cons x W ih =>
    rw [List.flatMap_cons, ih fun y hy => h y (by simp [hy])]
    simp only [diffSteps, (h x (by simp)).1, List.map_cons, List.flatMap_cons]

/-- C139: a benchmark program that is stopped at any point has changed no file but those of the differences.  There is a number t such that the files of
the factors before t are as a run that is not stopped leaves them, those of the factors after t are as before the run, and that of the factors t is as before
the run or holds a prefix of the difference of an action and the first action. -/
theorem C139_stopped (k : Nat) :
    (benchStopped asserts w rt block reps c d k).xml = d.xml ∧ (benchStopped asserts w rt block reps c d k).writable = d.writable ∧
    (∀ q, (∀ i, q ≠ diffName i) ∨ d.writable q = false → (benchStopped asserts w rt block reps c d k).bin q = d.bin q) ∧
    ∃ t : Nat,
      (∀ i, i < t → (benchStopped asserts w rt block reps c d k).bin (diffName i) = (BenchMain.main asserts w rt block reps c d).disk.bin (diffName i)) ∧
      (∀ i, t < i → (benchStopped asserts w rt block reps c d k).bin (diffName i) = d.bin (diffName i)) ∧
      ((benchStopped asserts w rt block reps c d k).bin (diffName t) = d.bin (diffName t) ∨
        ∃ l m, Difference asserts w rt block reps c d t l ∧ (benchStopped asserts w rt block reps c d k).bin (diffName t) = some (l.take m)) := by
  obtain ⟨s1, s2, s3⟩ := benchDiffs_spec asserts w rt block reps c d
  have hs := benchSteps_eq asserts w rt block reps c d
  obtain ⟨t, fs', he, h1, h2, h3, h4⟩ := after_ordered d.writable diffName (fun i j => BenchMain.diffName_inj)
    ((benchDiffs asserts w rt block reps c d).map fun x => (x.1, elems x.2)) (List.pairwise_map.2 (s2.imp fun h => h)) k d.bin
  have hb : (benchStopped asserts w rt block reps c d k).bin = fs' := by rw [he, ← hs]; rfl
  refine ⟨rfl, rfl, fun q hq => ?_, t, fun i hi => ?_, fun i hi => ?_, ?_⟩
  · rw [hb]; exact h1 q (hq.imp (fun h x _ => h x.1) id)
  · rw [hb, h3 i hi, s1, List.map_map]; rfl
  · rw [hb, h2 i hi]
  · rw [hb]
    rcases h4 with h4 | ⟨x, hx, rfl, m, h4⟩
    · exact .inl h4
    · obtain ⟨y, hy, rfl⟩ := List.mem_map.1 hx
      exact .inr ⟨elems y.2, m, (s3 y hy).2, h4⟩

/-- C139: a program that is not stopped has done what `BenchMain.main` says. -/
theorem C139_complete (k : Nat) (hk : ((benchDiffs asserts w rt block reps c d).flatMap diffSteps).length ≤ k) :
    benchStopped asserts w rt block reps c d k = (BenchMain.main asserts w rt block reps c d).disk := by
  obtain ⟨s1, -, -⟩ := benchDiffs_spec asserts w rt block reps c d
  have hs := benchSteps_eq asserts w rt block reps c d
  unfold benchStopped
  rw [hs] at hk ⊢
  rw [after_all _ _ _ hk, s1, List.map_map]
  rfl

/-- The files that a configuration reads are not those of the differences. -/
def Separate (c : BenchMain.Config ℝ) (d : Files.Disk ℝ) : Prop :=
  ∀ n es p, (n, es) ∈ c.matrices → BenchMain.Entry.file p ∈ es → ∀ s q, d.xml p = some (some (s, q)) → ∀ i, q ≠ diffName i

theorem resolve_eq (d' : Files.Disk ℝ) (hsep : Separate c d) (hx : d'.xml = d.xml) (hb : ∀ q, (∀ i, q ≠ diffName i) → d'.bin q = d.bin q) :
    BenchMain.resolve d' c.matrices = BenchMain.resolve d c.matrices := by
  unfold BenchMain.resolve
  refine List.map_congr_left fun x hx' => ?_
  obtain ⟨n, es⟩ := x
  dsimp only
  congr 1
  refine List.map_congr_left fun e he => ?_
  cases e with
  | file p =>
    simp only [BenchMain.Entry.leaf, Files.ofFile, hx]
    rcases h : d.xml p with _ | _ | ⟨s, q⟩
    · rfl
    · rfl
    · simp only [hb q (hsep n es p hx' he s q h)]
  | _ => rfl

theorem done_congr (writable : String → Bool) (W : List (String × List β)) (fs fs' : String → Option (List β))
    (h : ∀ q, (∀ x ∈ W, x.1 ≠ q) ∨ writable q = false → fs' q = fs q) : done writable W fs' = done writable W fs := by
  induction W generalizing fs fs' with
  | nil => funext q; exact h q (.inl (by simp))
  | cons x W ih =>
    refine ih _ _ fun q hq => ?_
    dsimp only
    split
    · dsimp only
      split
      · rfl
      · rename_i hw hne
        exact h q (hq.imp (fun h y hy => by rcases List.mem_cons.1 hy with rfl | hy; exacts [fun e => hne e.symm, h y hy]) id)
    · rename_i hw
      by_cases e : q = x.1
      · exact h q (.inr (by rw [e]; simpa using hw))
      · exact h q (hq.imp (fun h y hy => by rcases List.mem_cons.1 hy with rfl | hy; exacts [fun e' => e e'.symm, h y hy]) id)

/-- C139: after any number of stopped runs, a run that is not stopped prints the same table, exits with the same status and leaves the same files as if
nothing had happened before, provided that the configuration reads none of the files of the differences. -/
theorem C139_rerun (hsep : Separate c d) (ks : List Nat) :
    BenchMain.main asserts w rt block reps c (ks.foldl (benchStopped asserts w rt block reps c) d) = BenchMain.main asserts w rt block reps c d := by
  have diffs : ∀ d', BenchMain.resolve d' c.matrices = BenchMain.resolve d c.matrices →
      benchDiffs asserts w rt block reps c d' = benchDiffs asserts w rt block reps c d := by
    intro d' h; unfold benchDiffs; rw [h]
  have inv : ∀ ks : List Nat, ∀ d', d'.xml = d.xml → d'.writable = d.writable →
      (∀ q, (∀ x ∈ benchDiffs asserts w rt block reps c d, diffName x.1 ≠ q) ∨ d.writable q = false → d'.bin q = d.bin q) →
      let e := ks.foldl (benchStopped asserts w rt block reps c) d'
      e.xml = d.xml ∧ e.writable = d.writable ∧
      ∀ q, (∀ x ∈ benchDiffs asserts w rt block reps c d, diffName x.1 ≠ q) ∨ d.writable q = false → e.bin q = d.bin q := by
    intro ks
    induction ks with
    | nil => exact fun d' h1 h2 h3 => ⟨h1, h2, h3⟩
    | cons k ks ih =>
      intro d' h1 h2 h3
      refine ih _ h1 h2 fun q hq => ?_
      have hr := resolve_eq c d d' hsep h1 (fun q hq => h3 q (.inl fun x _ => (hq x.1).symm))
      have hs := benchSteps_eq asserts w rt block reps c d'
      obtain ⟨-, s2, -⟩ := benchDiffs_spec asserts w rt block reps c d'
      obtain ⟨t, fs', he, g, -⟩ := after_ordered d'.writable diffName (fun i j => BenchMain.diffName_inj)
        ((benchDiffs asserts w rt block reps c d').map fun x => (x.1, elems x.2)) (List.pairwise_map.2 (s2.imp fun h => h)) k d'.bin
      have hb : (benchStopped asserts w rt block reps c d' k).bin = fs' := by rw [he, ← hs]; rfl
      rw [hb, g q, h3 q hq]
      rw [diffs d' hr, h2]
      refine hq.imp (fun h x hx => ?_) id
      obtain ⟨y, hy, rfl⟩ := List.mem_map.1 hx
      exact (h y hy).symm
  obtain ⟨h1, h2, h3⟩ := inv ks d rfl rfl fun _ _ => rfl
  generalize ks.foldl (benchStopped asserts w rt block reps c) d = d' at h1 h2 h3
  have hr := resolve_eq c d d' hsep h1 (fun q hq => h3 q (.inl fun x _ => (hq x.1).symm))
  have hd : (BenchMain.main asserts w rt block reps c d').disk = (BenchMain.main asserts w rt block reps c d).disk := by
    rw [(benchDiffs_spec asserts w rt block reps c d').1, (benchDiffs_spec asserts w rt block reps c d).1, diffs d' hr, h2]
    rw [done_congr d.writable _ d.bin d'.bin (fun q hq => h3 q (hq.imp (fun h x hx => h _ (List.mem_map.2 ⟨x, hx, rfl⟩)) id))]
    cases d; cases d'
    simp only at h1 h2
    subst h1 h2
    rfl
  have rest : (BenchMain.main asserts w rt block reps c d').rows = (BenchMain.main asserts w rt block reps c d).rows ∧
      (BenchMain.main asserts w rt block reps c d').exit = (BenchMain.main asserts w rt block reps c d).exit := by
    unfold BenchMain.main
    rw [hr]
    rcases Provider.provider asserts (BenchMain.resolve d c.matrices) with e | sets <;> exact ⟨rfl, rfl⟩
  generalize BenchMain.main asserts w rt block reps c d' = X at hd rest
  generalize BenchMain.main asserts w rt block reps c d = Y at hd rest
  cases X; cases Y
  simp only at hd rest
  rw [hd, rest.1, rest.2]

end bench

/-! ### Configurations that are valid -/

theorem others_trace (i : Nat) (A B refC : Dense ℝ) (r c : Nat) (ref : Nat → Nat → ℝ) (ho : refC.ori = .col) (href : refC.Is r c ref) (as : List (Action ℝ)) :
    ∀ (h : Nat → Nat → Nat → ℝ) (o : Out), (∀ k a, as[k]? = some a → Bench.Computes a A B r c (h k)) →
    (othersDiffs true i A B refC as o).length = as.length ∧ ∀ k, k < as.length →
      ∃ D : Dense ℝ, (othersDiffs true i A B refC as o)[k]? = some (i, D.data) ∧ D.ori = .col ∧ D.Is r c (fun x y => h k x y - ref x y) := by
  induction as with
  | nil => intro h o _; exact ⟨rfl, by simp⟩
  | cons a as ih =>
    intro h o hc
    obtain ⟨row, D, e, hrow, hDo, hD⟩ := Bench.compare_sat (wd := true) (i := i) (hc 0 a rfl) ho href o
    obtain ⟨hl, hk⟩ := ih (fun k => h (k + 1)) ⟨o.rows ++ [row], if true = true then fun k => if k = i then some D.data else o.files k else o.files⟩
      (fun k b hb => hc (k + 1) b hb)
    have ht : othersDiffs true i A B refC (a :: as) o = (i, D.data) :: othersDiffs true i A B refC as
        ⟨o.rows ++ [row], if true = true then fun k => if k = i then some D.data else o.files k else o.files⟩ := by
      rw [othersDiffs, e]
      dsimp only
      have : ((if true = true then fun k => if k = i then some D.data else o.files k else o.files) i).toList.map (fun b => (i, b)) = [(i, D.data)] := by simp
      rw [if_pos rfl, this]
      rfl
    rw [ht]
    refine ⟨by rw [List.length_cons, hl, List.length_cons], fun k hk' => ?_⟩
    cases k with
    | zero => exact ⟨D, rfl, hDo, hD⟩
    | succ k =>
      obtain ⟨D', h1, h2, h3⟩ := hk k (by simpa using hk')
      exact ⟨D', by simpa using h1, h2, h3⟩

theorem matrices_trace (a : Action ℝ) (as : List (Action ℝ)) (la : List (Dense ℝ)) : ∀ (lb : List (Dense ℝ)) (i0 : Nat) (r c : Nat → Nat)
    (h : Nat → Nat → Nat → Nat → ℝ) (o : Out), la.length = lb.length →
    (∀ i k A B act, la[i]? = some A → lb[i]? = some B → (a :: as)[k]? = some act → Bench.Computes act A B (r i) (c i) (h i k)) →
    (matricesDiffs true a as i0 la lb o).length = la.length * as.length ∧ ∀ i k, i < la.length → k < as.length →
      ∃ D : Dense ℝ, (matricesDiffs true a as i0 la lb o)[i * as.length + k]? = some (i0 + i, D.data) ∧ D.ori = .col ∧
        D.Is (r i) (c i) (fun x y => h i (k + 1) x y - h i 0 x y) := by
  induction la with
  | nil => intro lb i0 r c h o _ _; exact ⟨by simp [matricesDiffs], by simp⟩
  | cons A la ih =>
    intro lb i0 r c h o hlen hc
    cases lb with
    | nil => simp at hlen
    | cons B lb =>
      obtain ⟨refC, e, ho, href⟩ := hc 0 0 A B a rfl rfl rfl
      have hcs : ∀ k b, as[k]? = some b → Bench.Computes b A B (r 0) (c 0) (h 0 (k + 1)) := fun k b hb => hc 0 (k + 1) A B b rfl rfl (by simpa using hb)
      obtain ⟨t1, t2⟩ := others_trace i0 A B refC (r 0) (c 0) (h 0 0) ho href as (fun k => h 0 (k + 1)) { o with rows := o.rows ++ [⟨i0, a.name, 0, 0⟩] } hcs
      obtain ⟨T, fs, e', -⟩ := Bench.others_sat true i0 A B refC (r 0) (c 0) (h 0 0) ho href as (fun k => h 0 (k + 1)) { o with rows := o.rows ++ [⟨i0, a.name, 0, 0⟩] } hcs
      obtain ⟨m1, m2⟩ := ih lb (i0 + 1) (fun i => r (i + 1)) (fun i => c (i + 1)) (fun i => h (i + 1)) ⟨o.rows ++ [⟨i0, a.name, 0, 0⟩] ++ T, fs⟩
        (by simpa using hlen) (fun i k A B act h1 h2 h3 => hc (i + 1) k A B act (by simpa using h1) (by simpa using h2) h3)
      rw [matricesDiffs, e]
      dsimp only
      rw [e']
      dsimp only
      refine ⟨by rw [List.length_append, t1, m1, List.length_cons, Nat.succ_mul]; omega, fun i k hi hk => ?_⟩
      cases i with
      | zero =>
        obtain ⟨D, h1, h2, h3⟩ := t2 k hk
        refine ⟨D, ?_, h2, h3⟩
        rw [List.getElem?_append_left (by omega)]
        simpa using h1
      | succ i =>
        obtain ⟨D, h1, h2, h3⟩ := m2 i k (by simpa using hi) hk
        refine ⟨D, ?_, h2, h3⟩
        have e1 : (i + 1) * as.length + k - (othersDiffs true i0 A B refC as { o with rows := o.rows ++ [⟨i0, a.name, 0, 0⟩] }).length = i * as.length + k := by
          rw [t1, Nat.succ_mul]; omega
        rw [List.getElem?_append_right (by rw [t1, Nat.succ_mul]; omega), e1, h1]
        congr 2
        omega

/-- The differences of a valid configuration, in order. -/
theorem valid_trace {F : Type} [Semiring F] (asserts : Bool) (w : With) (rt : Routines ℝ F) (hrt : rt.Conforms) (block : Action ℝ) (reps : Nat) (hr : 0 < reps)
    (c : BenchMain.Config ℝ) (d : Files.Disk ℝ) (la lb : List (Provider.Spec ℝ)) (h : BenchMain.Valid w rt c d la lb) (hw : c.writeDiff = true) :
    (benchDiffs asserts w rt block reps c d).length = la.length * (c.actions.length - 1) ∧
    ∀ (i k : Nat) (A B : Provider.Spec ℝ) (first other : String), la[i]? = some A → lb[i]? = some B → c.actions[0]? = some first → c.actions[k + 1]? = some other →
      ∃ b, (benchDiffs asserts w rt block reps c d)[i * (c.actions.length - 1) + k]? = some (i, b) ∧
        FileIO.Holds (elems b) A.rows B.cols (fun x y => BenchMain.result rt A B other x y - BenchMain.result rt A B first x y) := by
  obtain ⟨⟨sets, hconf, hA, hB⟩, hlen, hne, hin, hsm, ⟨hn0, hn⟩, hbl⟩ := h
  obtain ⟨S, eS, hS, -⟩ := Provider.C57_sets asserts (BenchMain.resolve d c.matrices) sets (BenchMain.configures hconf)
  have hcol := BenchMain.provider_col eS
  have get : ∀ n l, sets n = some l → ∃ L, S n = some L ∧ List.Forall₂ Provider.Spec.Holds l L ∧ ∀ A ∈ L, A.ori = .col := by
    intro n l hl
    rcases hS n with ⟨-, h⟩ | ⟨L, l', h1, h2, h3⟩
    · rw [hl] at h; cases h
    · rw [hl] at h2; cases h2; exact ⟨L, h1, h3, hcol n L h1⟩
  obtain ⟨LA, sA, fA, cA⟩ := get _ _ hA
  obtain ⟨LB, sB, fB, cB⟩ := get _ _ hB
  obtain ⟨hm1, hm2⟩ := BenchMain.provide_names (rt := rt) block (reps := reps) hn
  have hlA := fA.length_eq
  have hlB := fB.length_eq
  have hlen' : (Bench.provide w rt block reps c.actions).length = c.actions.length := by rw [← hm1, List.length_map, hm1]
  have hspec : ∀ {l : List (Provider.Spec ℝ)} {L : List (Dense ℝ)} {i : Nat} {A : Dense ℝ}, List.Forall₂ Provider.Spec.Holds l L → L[i]? = some A →
      ∃ s, l[i]? = some s ∧ s.Holds A := by
    intro l L i A hf hA
    obtain ⟨hi, hA⟩ := List.getElem?_eq_some_iff.1 hA
    have hi' : i < l.length := by rw [hf.length_eq]; exact hi
    refine ⟨l[i], List.getElem?_eq_getElem hi', ?_⟩
    rw [← hA]
    exact List.Forall₂.get hf hi' hi
  let g : Nat → Nat → Nat → Nat → ℝ := fun i k x y =>
    match la[i]?, lb[i]?, c.actions[k]? with
    | some A, some B, some name => BenchMain.result rt A B name x y
    | _, _, _ => 0
  have hg : ∀ {i k A B name}, la[i]? = some A → lb[i]? = some B → c.actions[k]? = some name → g i k = BenchMain.result rt A B name := by
    intro i k A B name h1 h2 h3
    funext x y
    simp only [g, h1, h2, h3]
  unfold benchDiffs
  rw [eS]
  dsimp only
  simp only [Provider.Sets.get, sA, sB]
  generalize hacts : Bench.provide w rt block reps c.actions = acts at *
  cases acts with
  | nil =>
    rw [List.length_nil] at hlen'
    exact absurd (List.length_eq_zero_iff.1 hlen'.symm) hn0
  | cons a as =>
    have hK : as.length + 1 = c.actions.length := by simpa using hlen'
    have hLA : LA.length ≠ 0 := by
      rw [← hlA]; exact fun h => hne (List.length_eq_zero_iff.1 h)
    dsimp only
    rw [if_neg (by omega), hw]
    obtain ⟨t1, t2⟩ := matrices_trace a as LA LB 0 (fun i => (la[i]?.map Provider.Spec.rows).getD 0) (fun i => (lb[i]?.map Provider.Spec.cols).getD 0)
      g ⟨[], fun _ => none⟩ (by omega) (by
        intro i k A B act hA' hB' hact
        obtain ⟨sA', a1, a2⟩ := hspec fA hA'
        obtain ⟨sB', b1, b2⟩ := hspec fB hB'
        obtain ⟨name, n1, n2, n3⟩ := hm2 k act hact
        obtain ⟨i1, i2⟩ := hin i _ _ a1 b1
        obtain ⟨s1, s2, s3⟩ := hsm i _ _ a1 b1
        have b2' : B.Is sA'.cols sB'.cols sB'.elem := by rw [i1]; exact b2
        obtain ⟨act', h, e1, -, hc, hp⟩ := Bench.C82_actions_partial w rt hrt block reps hr name (hn name (List.mem_of_getElem? n1)) A B sA'.rows sA'.cols sB'.cols
          sA'.elem sB'.elem a2 b2' (cA A (List.mem_of_getElem? hA')) (cB B (List.mem_of_getElem? hB')) s1 s2 s3 i2
          (fun hb => hbl ⟨name, List.mem_of_getElem? n1, hb⟩ i _ a1)
        rw [n2] at e1
        cases e1
        rw [hg a1 b1 n1]
        simp only [a1, b1, Option.map_some, Option.getD_some]
        have : BenchMain.result rt sA' sB' name = h := by
          funext x y
          simp only [BenchMain.result, hp x y, Option.getD_some]
        rw [this]
        exact hc)
    have hk : c.actions.length - 1 = as.length := by omega
    rw [hk]
    refine ⟨by rw [t1, hlA], fun i k A B first other hA' hB' hf ho => ?_⟩
    have hi : i < LA.length := by rw [← hlA]; exact (List.getElem?_eq_some_iff.1 hA').1
    have hk' : k < as.length := by
      have := (List.getElem?_eq_some_iff.1 ho).1
      omega
    obtain ⟨D, d1, d2, d3⟩ := t2 i k hi hk'
    rw [hg hA' hB' ho, hg hA' hB' hf] at d3
    simp only [hA', hB', Option.map_some, Option.getD_some] at d3
    refine ⟨D.data, by simpa using d1, ?_⟩
    obtain ⟨l, e, hl⟩ := Files.dump_holds d3 d2
    rw [d3.size, ← d3.alloc] at e
    have : elems D.data = l := by unfold elems; rw [e]; rfl
    rw [this]
    exact hl

section valid

variable {F : Type} [Semiring F] (asserts : Bool) (w : With) (rt : Routines ℝ F) (hrt : rt.Conforms) (block : Action ℝ) (reps : Nat) (hr : 0 < reps)
  (c : BenchMain.Config ℝ) (d : Files.Disk ℝ) (la lb : List (Provider.Spec ℝ)) (h : BenchMain.Valid w rt c d la lb) (hw : c.writeDiff = true)

include hrt hr h hw

/-- C139 (negation): a file with a complete difference need not be the one a complete run leaves: for every factors and every action but the first, the program
can be stopped when their file holds the difference of that action. -/
theorem C139_any_action (i k : Nat) (A B : Provider.Spec ℝ) (first other : String) (hA : la[i]? = some A) (hB : lb[i]? = some B) (hf : c.actions[0]? = some first)
    (ho : c.actions[k + 1]? = some other) (hwr : d.writable (diffName i) = true) :
    ∃ n l, (benchStopped asserts w rt block reps c d n).bin (diffName i) = some l ∧
      FileIO.Holds l A.rows B.cols (fun x y => BenchMain.result rt A B other x y - BenchMain.result rt A B first x y) := by
  obtain ⟨-, t⟩ := valid_trace asserts w rt hrt block reps hr c d la lb h hw
  obtain ⟨b, hb, hl⟩ := t i k A B first other hA hB hf ho
  have hs := benchSteps_eq asserts w rt block reps c d
  obtain ⟨V, W, hVW⟩ : ∃ V W, benchDiffs asserts w rt block reps c d = V ++ (i, b) :: W := by
    obtain ⟨hlt, e⟩ := List.getElem?_eq_some_iff.1 hb
    refine ⟨(benchDiffs asserts w rt block reps c d).take (i * (c.actions.length - 1) + k),
      (benchDiffs asserts w rt block reps c d).drop (i * (c.actions.length - 1) + k + 1), ?_⟩
    rw [← e, ← List.drop_eq_getElem_cons hlt, List.take_append_drop]
  refine ⟨(((V ++ [(i, b)]).map fun x => (diffName x.1, elems x.2)).flatMap fun x => save x.1 x.2).length, elems b, ?_, hl⟩
  · unfold benchStopped
    have form : ∀ U : List (Nat × Buf ℝ), ((U.map fun x => (x.1, elems x.2)).map fun x => (diffName x.1, x.2)) = U.map fun x => (diffName x.1, elems x.2) :=
      fun U => by rw [List.map_map]; rfl
    have this : V ++ (i, b) :: W = (V ++ [(i, b)]) ++ W := by simp
    rw [hs, hVW, form, this, List.map_append (l₁ := V ++ [(i, b)]), List.flatMap_append]
    have key := after_all d.writable ((V ++ [(i, b)]).map fun x => (diffName x.1, elems x.2)) _ (Nat.le_refl _) d.bin
    unfold after at key ⊢
    rw [List.take_left' rfl]
    rw [List.take_of_length_le (Nat.le_refl _)] at key
    rw [key, List.map_append, done_append]
    simp [done, hwr]

/-- C139: for a valid configuration the file that is not complete holds a prefix, column by column, of the difference of the results of an action and the first
action. -/
theorem C139_valid_stopped (n : Nat) :
    ∃ t : Nat,
      (∀ i, i < t → (benchStopped asserts w rt block reps c d n).bin (diffName i) = (BenchMain.main asserts w rt block reps c d).disk.bin (diffName i)) ∧
      (∀ i, t < i → (benchStopped asserts w rt block reps c d n).bin (diffName i) = d.bin (diffName i)) ∧
      ((benchStopped asserts w rt block reps c d n).bin (diffName t) = d.bin (diffName t) ∨
        ∃ k A B first other l m, la[t]? = some A ∧ lb[t]? = some B ∧ c.actions[0]? = some first ∧ c.actions[k + 1]? = some other ∧
          FileIO.Holds l A.rows B.cols (fun x y => BenchMain.result rt A B other x y - BenchMain.result rt A B first x y) ∧
          (benchStopped asserts w rt block reps c d n).bin (diffName t) = some (l.take m)) := by
  obtain ⟨tl, tr⟩ := valid_trace asserts w rt hrt block reps hr c d la lb h hw
  obtain ⟨s1, s2, -⟩ := benchDiffs_spec asserts w rt block reps c d
  have hs := benchSteps_eq asserts w rt block reps c d
  obtain ⟨t, fs', he, -, h2, h3, h4⟩ := after_ordered d.writable diffName (fun i j => BenchMain.diffName_inj)
    ((benchDiffs asserts w rt block reps c d).map fun x => (x.1, elems x.2)) (List.pairwise_map.2 (s2.imp fun h => h)) n d.bin
  have hb : (benchStopped asserts w rt block reps c d n).bin = fs' := by rw [he, ← hs]; rfl
  refine ⟨t, fun i hi => ?_, fun i hi => ?_, ?_⟩
  · rw [hb, h3 i hi, s1, List.map_map]; rfl
  · rw [hb, h2 i hi]
  · rw [hb]
    rcases h4 with h4 | ⟨x, hx, rfl, m, h4⟩
    · exact .inl h4
    · obtain ⟨y, hy, rfl⟩ := List.mem_map.1 hx
      obtain ⟨p, hp, e⟩ := List.getElem_of_mem hy
      have hpos : 0 < c.actions.length - 1 := Nat.pos_of_ne_zero fun h0 => by rw [h0] at tl; omega
      have hi : p / (c.actions.length - 1) < la.length := Nat.div_lt_of_lt_mul (by rw [Nat.mul_comm]; omega)
      have hk := Nat.mod_lt p hpos
      have hi' : p / (c.actions.length - 1) < lb.length := by rw [← h.pairs]; exact hi
      obtain ⟨b, b1, b2⟩ := tr (p / (c.actions.length - 1)) (p % (c.actions.length - 1)) _ _ _ _ (List.getElem?_eq_getElem hi) (List.getElem?_eq_getElem hi')
        (List.getElem?_eq_getElem (by omega : 0 < c.actions.length)) (List.getElem?_eq_getElem (by omega : p % (c.actions.length - 1) + 1 < c.actions.length))
      rw [Nat.mul_comm, Nat.div_add_mod, List.getElem?_eq_getElem hp, e] at b1
      obtain rfl : y = (_, b) := Option.some.inj b1
      exact .inr ⟨_, _, _, _, _, elems b, m, List.getElem?_eq_getElem hi, List.getElem?_eq_getElem hi', List.getElem?_eq_getElem (by omega),
        List.getElem?_eq_getElem (by omega), b2, h4⟩

end valid

/-- The hypotheses are met by three actions and a band matrix that is squared: the configuration is valid and reads no file, and the program can be stopped when
the file holds the difference of the second action, and when it holds that of the third. -/
example (d : Files.Disk ℝ) (hwr : d.writable "diff_0.dat" = true) :
    let rt := Bench.refRoutines ⟨4, 4, 4, true, true, true⟩
    let c : BenchMain.Config ℝ := ⟨["native_dense", "openblas_sgemm", "openblas_dgemm"], [("A", [.band [2] [1] 5]), ("B", [.equalTo "A"])], true⟩
    let s : Provider.Spec ℝ := ⟨2, 2, fun i j => if ((i : Int) - j).natAbs < 1 then 5 else 0⟩
    Separate c d ∧ (∀ ks : List Nat, BenchMain.main true ⟨true, false, false⟩ rt (Bench.native 1) 3 c (ks.foldl (benchStopped true ⟨true, false, false⟩ rt (Bench.native 1) 3 c) d) =
      BenchMain.main true ⟨true, false, false⟩ rt (Bench.native 1) 3 c d) ∧
    ∀ k other, c.actions[k + 1]? = some other → ∃ n l, (benchStopped true ⟨true, false, false⟩ rt (Bench.native 1) 3 c d n).bin "diff_0.dat" = some l ∧
      FileIO.Holds l 2 2 (fun x y => BenchMain.result rt s s other x y - BenchMain.result rt s s "native_dense" x y) := by
  intro rt c s
  have hsets : ∃ sets, BenchMain.Describes d (BenchMain.inOrder c.matrices) sets ∧ sets "A" = some [s] ∧ sets "B" = some [s] :=
    ⟨_, .snoc (.snoc .nil (.bands [2] [1] 5 (by decide) (by decide))) (.copy "A" [s] (by decide) rfl), rfl, rfl⟩
  have hv : BenchMain.Valid ⟨true, false, false⟩ rt c d [s] [s] := by
    refine ⟨hsets, rfl, by simp, ?_, ?_, ⟨by simp [c], ?_⟩, ?_⟩
    · intro i A B hA hB
      match i, hA, hB with
      | 0, hA, hB => cases hA; cases hB; exact ⟨rfl, by decide⟩
      | i + 1, hA, _ => simp at hA
    · intro i A B hA hB
      match i, hA, hB with
      | 0, hA, hB => cases hA; cases hB; exact ⟨by decide, by decide, by decide⟩
      | i + 1, hA, _ => simp at hA
    · intro n hn
      simp only [c, List.mem_cons, List.not_mem_nil, or_false] at hn
      rcases hn with rfl | rfl | rfl <;> simp [Bench.available]
    · rintro ⟨n, hn, hb⟩
      simp only [c, List.mem_cons, List.not_mem_nil, or_false] at hn
      rcases hn with rfl | rfl | rfl <;> simp at hb
  have hsep : Separate c d := by
    intro n es p hn he
    simp only [c, List.mem_cons, List.not_mem_nil, or_false, Prod.mk.injEq] at hn
    rcases hn with ⟨-, rfl⟩ | ⟨-, rfl⟩ <;> simp at he
  exact ⟨hsep, fun ks => C139_rerun true _ rt _ 3 c d hsep ks,
    fun k other ho => C139_any_action true _ rt (Bench.refRoutines_conforms _) _ 3 (by norm_num) c d [s] [s] hv rfl 0 k s s _ _ rfl rfl rfl ho hwr⟩

/-- The disk after an earlier run: `diff_0.dat` holds one element, and the description `x.xml` names it. -/
def sepDisk : Files.Disk ℝ :=
  ⟨fun p => if p = "x.xml" then some (some (⟨1, 1, 1, 1, 0, 0⟩, "diff_0.dat")) else none, fun p => if p = "diff_0.dat" then some [5] else none, fun _ => true⟩

/-- The configuration reads that file as both factors, and its run writes the difference of two actions to it. -/
def sepConfig : BenchMain.Config ℝ := ⟨["native_dense", "openblas_dgemm"], [("A", [.file "x.xml"]), ("B", [.equalTo "A"])], true⟩

/-- C139 (negation): without the proviso the statement about the next run is false: a configuration that reads a file of the differences runs to its end; stopped
when the file was just opened, the same command afterwards reads factors that are not there, undefined behaviour. -/
theorem C139_reads_its_own_file_counterexample :
    (BenchMain.main true ⟨true, false, false⟩ (Bench.refRoutines ⟨4, 4, 4, true, true, true⟩) (Bench.native 1) 1 sepConfig sepDisk).exit = .ok 0 ∧
    (BenchMain.main true ⟨true, false, false⟩ (Bench.refRoutines ⟨4, 4, 4, true, true, true⟩) (Bench.native 1) 1 sepConfig
      (benchStopped true ⟨true, false, false⟩ (Bench.refRoutines ⟨4, 4, 4, true, true, true⟩) (Bench.native 1) 1 sepConfig sepDisk 1)).exit = .error .ub := by
  let s : Provider.Spec ℝ := ⟨1, 1, fun i j => (fun _ _ => 5) (0 + i) (0 + j)⟩
  have hh : FileIO.Holds ([5] : List ℝ) 1 1 (fun _ _ => 5) := by
    refine ⟨rfl, fun i j hi hj => ?_⟩
    obtain rfl : i = 0 := by omega
    obtain rfl : j = 0 := by omega
    rfl
  have hsets : ∃ sets, BenchMain.Describes sepDisk (BenchMain.inOrder sepConfig.matrices) sets ∧ sets "A" = some [s] ∧ sets "B" = some [s] :=
    ⟨_, .snoc (.snoc .nil (.file "x.xml" "diff_0.dat" ⟨1, 1, 1, 1, 0, 0⟩ [5] (fun _ _ => 5) rfl rfl hh (by decide) (by decide))) (.copy "A" [s] (by decide) rfl), rfl, rfl⟩
  have hv : BenchMain.Valid ⟨true, false, false⟩ (Bench.refRoutines ⟨4, 4, 4, true, true, true⟩) sepConfig sepDisk [s] [s] := by
    refine ⟨hsets, rfl, by simp, ?_, ?_, ⟨by simp [sepConfig], ?_⟩, ?_⟩
    · intro i A B hA hB
      match i, hA, hB with
      | 0, hA, hB => cases hA; cases hB; exact ⟨rfl, by decide⟩
      | i + 1, hA, _ => simp at hA
    · intro i A B hA hB
      match i, hA, hB with
      | 0, hA, hB => cases hA; cases hB; exact ⟨by decide, by decide, by decide⟩
      | i + 1, hA, _ => simp at hA
    · intro n hn
      simp only [sepConfig, List.mem_cons, List.not_mem_nil, or_false] at hn
      rcases hn with rfl | rfl <;> simp [Bench.available]
    · rintro ⟨n, hn, hb⟩
      simp only [sepConfig, List.mem_cons, List.not_mem_nil, or_false] at hn
      rcases hn with rfl | rfl <;> simp at hb
  obtain ⟨d', T, e, -⟩ := BenchMain.C129_table_partial true ⟨true, false, false⟩ (Bench.refRoutines ⟨4, 4, 4, true, true, true⟩) (Bench.refRoutines_conforms _)
    (Bench.native 1) 1 (by norm_num) sepConfig sepDisk [s] [s] hv
  refine ⟨by rw [e], ?_⟩
  obtain ⟨-, t⟩ := valid_trace true ⟨true, false, false⟩ (Bench.refRoutines ⟨4, 4, 4, true, true, true⟩) (Bench.refRoutines_conforms _) (Bench.native 1) 1 (by norm_num)
    sepConfig sepDisk [s] [s] hv rfl
  obtain ⟨b, hb, -⟩ := t 0 0 s s "native_dense" "openblas_dgemm" rfl rfl rfl rfl
  have hst : benchStopped true ⟨true, false, false⟩ (Bench.refRoutines ⟨4, 4, 4, true, true, true⟩) (Bench.native 1) 1 sepConfig sepDisk 1 =
      { sepDisk with bin := fun p => if p = "diff_0.dat" then some [] else sepDisk.bin p } := by
    unfold benchStopped
    rw [benchSteps_eq]
    generalize benchDiffs true ⟨true, false, false⟩ (Bench.refRoutines ⟨4, 4, 4, true, true, true⟩) (Bench.native 1) 1 sepConfig sepDisk = W at hb
    cases W with
    | nil => simp at hb
    | cons x W =>
      obtain rfl : x = (0, b) := by simpa using hb
      have hn : diffName 0 = "diff_0.dat" := by decide +kernel
      simp [after, save, Effect.apply, hn, sepDisk]
  rw [hst]
  rfl

end BB.Interrupted
