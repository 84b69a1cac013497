import Verif.Model.BlockSize
import Verif.Lemmas.Base

/-! Lemmas about the block size generator: the borders. -/

namespace BB

/-- `a` and `b` are neighbouring borders. -/
def Consec (B : List Nat) (a b : Nat) : Prop := a ∈ B ∧ b ∈ B ∧ a < b ∧ ∀ x ∈ B, x ≤ a ∨ b ≤ x

theorem mem_setInsert {x y : Nat} {l : List Nat} : y ∈ setInsert x l ↔ y = x ∨ y ∈ l := by
  induction l with
  | nil => simp [setInsert]
  | cons a l ih =>
    simp only [setInsert]
    split
    · simp
    · split
      · rename_i h; subst h; simp
      · simp only [List.mem_cons, ih]; tauto

theorem setInsert_sorted {x : Nat} {l : List Nat} (h : l.Pairwise (· < ·)) : (setInsert x l).Pairwise (· < ·) := by
  induction l with
  | nil => simp [setInsert]
  | cons a l ih =>
    simp only [setInsert]
    rw [List.pairwise_cons] at h
    split
    · rename_i hx
      rw [List.pairwise_cons, List.pairwise_cons]
      refine ⟨?_, h⟩
      intro y hy
      rcases List.mem_cons.1 hy with rfl | hy
      · exact hx
      · exact lt_trans hx (h.1 y hy)
    · split
      · exact List.pairwise_cons.2 h
      · rename_i h1 h2
        rw [List.pairwise_cons]
        refine ⟨?_, ih h.2⟩
        intro y hy
        rcases mem_setInsert.1 hy with rfl | hy
        · omega
        · exact h.1 y hy

theorem setPrevLower_ok {B : List Nat} (hs : B.Pairwise (· < ·)) {x a : Nat} (ha : a ∈ B) (hax : a < x) :
    ∃ p, setPrevLower B x = .ok p ∧ p ∈ B ∧ p < x ∧ ∀ y ∈ B, y < x → y ≤ p := by
  unfold setPrevLower
  have hmem : a ∈ B.filter (fun a => decide (a < x)) := by simp [ha, hax]
  rcases hl : (B.filter (fun a => decide (a < x))).getLast? with _ | p
  · rw [List.getLast?_eq_none_iff] at hl; rw [hl] at hmem; cases hmem
  · refine ⟨p, rfl, ?_⟩
    have hp := List.mem_of_getLast? hl
    simp only [List.mem_filter, decide_eq_true_eq] at hp
    refine ⟨hp.1, hp.2, ?_⟩
    intro y hy hyx
    obtain ⟨l', hl'⟩ := List.getLast?_eq_some_iff.1 hl
    have hf : (B.filter (fun a => decide (a < x))).Pairwise (· < ·) := hs.filter _
    rw [hl', List.pairwise_append] at hf
    have hy' : y ∈ B.filter (fun a => decide (a < x)) := by simp [hy, hyx]
    rw [hl'] at hy'
    rcases List.mem_append.1 hy' with h | h
    · exact le_of_lt (hf.2.2 y h p (by simp))
    · simp at h; omega

theorem setUpper_ok {B : List Nat} (hs : B.Pairwise (· < ·)) {x a : Nat} (ha : a ∈ B) (hax : x < a) :
    ∃ p, setUpper B x = .ok p ∧ p ∈ B ∧ x < p ∧ ∀ y ∈ B, x < y → p ≤ y := by
  unfold setUpper
  induction B with
  | nil => cases ha
  | cons b B ih =>
    rw [List.pairwise_cons] at hs
    by_cases hb : x < b
    · simp only [List.find?_cons, hb, decide_true]
      refine ⟨b, rfl, by simp, hb, ?_⟩
      intro y hy _
      rcases List.mem_cons.1 hy with rfl | hy
      · exact le_refl _
      · exact le_of_lt (hs.1 y hy)
    · simp only [List.find?_cons, hb, decide_false]
      rcases List.mem_cons.1 ha with rfl | ha
      · exact absurd hax hb
      · obtain ⟨p, h1, h2, h3, h4⟩ := ih hs.2 ha
        refine ⟨p, h1, List.mem_cons_of_mem _ h2, h3, ?_⟩
        intro y hy hxy
        rcases List.mem_cons.1 hy with rfl | hy
        · exact absurd hxy hb
        · exact h4 y hy hxy

/-- Inserting a border inside a block replaces that block by two. -/
theorem Consec.insert {B : List Nat} {a b x : Nat} (h : Consec B a b) (hax : a < x) (hxb : x < b) {u v : Nat} :
    Consec (setInsert x B) u v ↔ (u = a ∧ v = x) ∨ (u = x ∧ v = b) ∨ (Consec B u v ∧ u ≠ a) := by
  obtain ⟨ha, hb, hab, hn⟩ := h
  constructor
  · rintro ⟨hu, hv, huv, hno⟩
    rw [mem_setInsert] at hu hv
    have na := hno a (mem_setInsert.2 (.inr ha))
    have nb := hno b (mem_setInsert.2 (.inr hb))
    have nx := hno x (mem_setInsert.2 (.inl rfl))
    rcases hu with rfl | hu
    · right; left
      refine ⟨rfl, ?_⟩
      rcases hv with rfl | hv
      · omega
      · have := hn v hv; omega
    · have hu' := hn u hu
      rcases hv with rfl | hv
      · left; exact ⟨by omega, rfl⟩
      · have hv' := hn v hv
        by_cases hua : u = a
        · exfalso; omega
        · right; right
          exact ⟨⟨hu, hv, huv, fun y hy => hno y (mem_setInsert.2 (.inr hy))⟩, hua⟩
  · rintro (⟨rfl, rfl⟩ | ⟨rfl, rfl⟩ | ⟨⟨hu, hv, huv, hno⟩, hua⟩)
    · refine ⟨mem_setInsert.2 (.inr ha), mem_setInsert.2 (.inl rfl), hax, ?_⟩
      intro y hy
      rcases mem_setInsert.1 hy with rfl | hy
      · omega
      · have := hn y hy; omega
    · refine ⟨mem_setInsert.2 (.inl rfl), mem_setInsert.2 (.inr hb), hxb, ?_⟩
      intro y hy
      rcases mem_setInsert.1 hy with rfl | hy
      · omega
      · have := hn y hy; omega
    · refine ⟨mem_setInsert.2 (.inr hu), mem_setInsert.2 (.inr hv), huv, ?_⟩
      intro y hy
      rcases mem_setInsert.1 hy with rfl | hy
      · have h1 := hn u hu
        have h2 := hn v hv
        have h3 := hno a ha
        have h4 := hno b hb
        omega
      · exact hno y hy

theorem Consec.unique {B : List Nat} {a b b' : Nat} (h : Consec B a b) (h' : Consec B a b') : b = b' := by
  obtain ⟨-, hb, hab, hn⟩ := h
  obtain ⟨-, hb', hab', hn'⟩ := h'
  have := hn b' hb'
  have := hn' b hb
  omega

/-- `x` splits the block `[a,b)` into two parts of at least `mn` elements. -/
def Splits (mn : Nat) (B : List Nat) (x a b : Nat) : Prop :=
  Consec B a b ∧ a < x ∧ x < b ∧ mn ≤ x - a ∧ mn ≤ b - x

/-- What `pickNext` has found after the positions `seen`. -/
def Picked (mn : Nat) (order B seen : List Nat) (s : Nat × Option Next) : Prop :=
  (∀ j ∈ seen, ∀ o a b, order[j]? = some o → Splits mn B (o + 1) a b → min (o + 1 - a) (b - (o + 1)) ≤ s.1) ∧
  match s.2 with
  | none => s.1 = 0
  | some nx => nx.j ∈ seen ∧ ∃ o b, order[nx.j]? = some o ∧ nx.idx = o + 1 ∧ Splits mn B nx.idx nx.leftIdx b ∧
      nx.left = nx.idx - nx.leftIdx ∧ nx.right = b - nx.idx ∧ s.1 = min nx.left nx.right

theorem pickNext_ok {mn n : Nat} {order B : List Nat} (hs : B.Pairwise (· < ·)) (h0 : 0 ∈ B) (hn : n ∈ B)
    (js seen : List Nat) (s : Nat × Option Next)
    (hjs : ∀ j ∈ js, ∃ o, order[j]? = some o ∧ o + 1 < n ∧ o + 1 ∉ B) (hP : Picked mn order B seen s) :
    ∃ s', pickNext mn order B js s = .ok s' ∧ Picked mn order B (seen ++ js) s' := by
  induction js generalizing seen s with
  | nil => exact ⟨s, rfl, by simpa using hP⟩
  | cons j js ih =>
    obtain ⟨o, ho, hon, hoB⟩ := hjs j (by simp)
    have hjs' : ∀ j ∈ js, ∃ o, order[j]? = some o ∧ o + 1 < n ∧ o + 1 ∉ B := fun k hk => hjs k (by simp [hk])
    obtain ⟨p, e1, hp, hpx, hpm⟩ := setPrevLower_ok hs h0 (x := o + 1) (by omega)
    obtain ⟨q, e2, hq, hxq, hqm⟩ := setUpper_ok hs hn (x := o + 1) hon
    have hc : Consec B p q := by
      refine ⟨hp, hq, by omega, ?_⟩
      intro y hy
      rcases Nat.lt_trichotomy y (o + 1) with h | h | h
      · exact .inl (hpm y hy h)
      · exact absurd (h ▸ hy) hoB
      · exact .inr (hqm y hy h)
    have huniq : ∀ a b, Splits mn B (o + 1) a b → a = p ∧ b = q := by
      rintro a b ⟨⟨ha, hb, hab, hno⟩, h1, h2, -, -⟩
      have := hno p hp; have := hno q hq
      have := hpm a ha h1; have := hqm b hb h2
      omega
    have key : ∀ s1, Picked mn order B (seen ++ [j]) s1 →
        ∃ s', pickNext mn order B js s1 = .ok s' ∧ Picked mn order B (seen ++ j :: js) s' := by
      intro s1 h1
      obtain ⟨s', e, h⟩ := ih (seen ++ [j]) s1 hjs' h1
      exact ⟨s', e, by simpa using h⟩
    have mono : ∀ s1 : Nat × Option Next, Picked mn order B seen s1 →
        (∀ a b, Splits mn B (o + 1) a b → min (o + 1 - a) (b - (o + 1)) ≤ s1.1) → Picked mn order B (seen ++ [j]) s1 := by
      rintro ⟨m, nx⟩ ⟨h1, h2⟩ h3
      refine ⟨?_, ?_⟩
      · intro j' hj' o' a b ho' hsp
        rcases List.mem_append.1 hj' with hj' | hj'
        · exact h1 j' hj' o' a b ho' hsp
        · simp only [List.mem_singleton] at hj'
          subst hj'
          rw [ho] at ho'; cases ho'
          exact h3 a b hsp
      · rcases nx with _ | nx
        · exact h2
        · exact ⟨List.mem_append_left _ h2.1, h2.2⟩
    simp only [pickNext, vecRead, ho, e1, e2, bind_ok']
    split
    · rename_i hlt
      refine key s (mono s hP ?_)
      intro a b hsp
      obtain ⟨rfl, rfl⟩ := huniq a b hsp
      obtain ⟨-, -, -, h3, h4⟩ := hsp
      omega
    · rename_i hge
      have hsp : Splits mn B (o + 1) p q := ⟨hc, hpx, hxq, by omega, by omega⟩
      split
      · rename_i hbig
        refine key _ ⟨?_, ?_⟩
        · intro j' hj' o' a b ho' hsp'
          rcases List.mem_append.1 hj' with hj' | hj'
          · exact (hP.1 j' hj' o' a b ho' hsp').trans (le_of_lt hbig)
          · simp only [List.mem_singleton] at hj'
            subst hj'
            rw [ho] at ho'; cases ho'
            obtain ⟨rfl, rfl⟩ := huniq a b hsp'
            exact le_refl _
        · exact ⟨by simp, o, q, ho, rfl, hsp, rfl, rfl, rfl⟩
      · rename_i hbig
        refine key s (mono s hP ?_)
        intro a b hsp'
        obtain ⟨rfl, rfl⟩ := huniq a b hsp'
        exact not_lt.1 hbig

/-! ### The invariant of the main loop -/

/-- State after the positions `done` (of the sorted order) were turned into borders of `n` elements. -/
structure BSInv (n mn mx : Nat) (order done : List Nat) (s : BSState) : Prop where
  sorted : s.borders.Pairwise (· < ·)
  mem : ∀ x, x ∈ s.borders ↔ x = 0 ∨ x = n ∨ ∃ j ∈ done, ∃ o, order[j]? = some o ∧ x = o + 1
  small : ∀ a b, Consec s.borders a b → (a = 0 ∧ b = n) ∨ mn ≤ b - a
  large : ∀ a b, Consec s.borders a b → mx < b - a → a ∈ s.large
  tight : ∀ a ∈ s.large, (done = [] ∧ a = 0) ∨ ∃ b, Consec s.borders a b ∧ mx < b - a

theorem BSInv.init {n mn mx : Nat} {order : List Nat} (hn : 0 < n) : BSInv n mn mx order [] ⟨setInsert 0 [n], [0]⟩ := by
  have e : setInsert 0 [n] = [0, n] := by simp [setInsert, hn]
  rw [e]
  refine ⟨by simp [hn], by simp, ?_, ?_, by simp⟩
  · rintro a b ⟨ha, hb, hab, -⟩
    simp at ha hb; omega
  · rintro a b ⟨ha, hb, hab, -⟩ _
    simp at ha hb ⊢; omega

theorem BSInv.place {n mn mx : Nat} {order done : List Nat} {s : BSState} (h : BSInv n mn mx order done s)
    {nx : Next} {o b : Nat} (ho : order[nx.j]? = some o) (hi : nx.idx = o + 1) (hsp : Splits mn s.borders nx.idx nx.leftIdx b)
    (hl : nx.left = nx.idx - nx.leftIdx) (hr : nx.right = b - nx.idx) :
    BSInv n mn mx order (done ++ [nx.j]) (placeBorder mx s nx) := by
  obtain ⟨hc, hax, hxb, h1, h2⟩ := hsp
  have hins := fun u v => hc.insert hax hxb (u := u) (v := v)
  have eb : (placeBorder mx s nx).borders = setInsert nx.idx s.borders := by
    unfold placeBorder; dsimp only; split <;> rfl
  have memL : ∀ a, a ∈ (placeBorder mx s nx).large ↔
      if nx.leftIdx ∈ s.large then (a ∈ s.large ∧ (nx.left ≤ mx → a ≠ nx.leftIdx)) ∨ (mx < nx.right ∧ a = nx.idx) else a ∈ s.large := by
    intro a
    unfold placeBorder
    dsimp only
    split
    · simp only
      split <;> split <;> simp_all [mem_setInsert, or_comm]
    · simp
  refine ⟨?_, ?_, ?_, ?_, ?_⟩
  · rw [eb]; exact setInsert_sorted h.sorted
  · intro x
    rw [eb, mem_setInsert, h.mem]
    constructor
    · rintro (rfl | h | h | ⟨j, hj, o', e, rfl⟩)
      · exact .inr (.inr ⟨nx.j, by simp, o, ho, hi⟩)
      · exact .inl h
      · exact .inr (.inl h)
      · exact .inr (.inr ⟨j, by simp [hj], o', e, rfl⟩)
    · rintro (h | h | ⟨j, hj, o', e, rfl⟩)
      · exact .inr (.inl h)
      · exact .inr (.inr (.inl h))
      · rcases List.mem_append.1 hj with hj | hj
        · exact .inr (.inr (.inr ⟨j, hj, o', e, rfl⟩))
        · simp only [List.mem_singleton] at hj
          subst hj
          rw [ho] at e; cases e
          exact .inl hi.symm
  · intro u v huv
    rw [eb, hins] at huv
    rcases huv with ⟨rfl, rfl⟩ | ⟨rfl, rfl⟩ | ⟨huv, -⟩
    · exact .inr h1
    · exact .inr h2
    · exact h.small u v huv
  · intro u v huv hbig
    rw [eb, hins] at huv
    rw [memL]
    rcases huv with ⟨rfl, rfl⟩ | ⟨rfl, rfl⟩ | ⟨huv, hne⟩
    · have := h.large _ _ hc (by omega)
      rw [if_pos this]
      exact .inl ⟨this, fun h => by omega⟩
    · have := h.large _ _ hc (by omega)
      rw [if_pos this]
      exact .inr ⟨by omega, rfl⟩
    · have := h.large _ _ huv hbig
      split
      · exact .inl ⟨this, fun _ => hne⟩
      · exact this
  · intro u hu
    right
    rw [eb]
    rw [memL] at hu
    split at hu
    · rcases hu with ⟨hu, hne⟩ | ⟨hbig, rfl⟩
      · by_cases hul : u = nx.leftIdx
        · exact ⟨nx.idx, (hins _ _).2 (.inl ⟨hul, rfl⟩), by subst hul; by_contra hcon; exact hne (by omega) rfl⟩
        · rcases h.tight u hu with ⟨hd, h0⟩ | ⟨v, hv, hb⟩
          · exfalso
            -- initially the only block starts at 0
            have : nx.leftIdx = 0 ∨ nx.leftIdx = n := by
              have := (h.mem nx.leftIdx).1 hc.1
              rw [hd] at this; simpa using this
            have hb' : b = 0 ∨ b = n := by
              have := (h.mem b).1 hc.2.1
              rw [hd] at this; simpa using this
            have := hc.2.2.1
            omega
          · exact ⟨v, (hins _ _).2 (.inr (.inr ⟨hv, hul⟩)), hb⟩
      · exact ⟨b, (hins _ _).2 (.inr (.inl ⟨rfl, rfl⟩)), by omega⟩
    · rename_i hnl
      rcases h.tight u hu with ⟨hd, h0⟩ | ⟨v, hv, hb⟩
      · exfalso
        have : nx.leftIdx = 0 ∨ nx.leftIdx = n := by
          have := (h.mem nx.leftIdx).1 hc.1
          rw [hd] at this; simpa using this
        have hb' : b = 0 ∨ b = n := by
          have := (h.mem b).1 hc.2.1
          rw [hd] at this; simpa using this
        have := hc.2.2.1
        have : nx.leftIdx = u := by omega
        exact hnl (this ▸ hu)
      · refine ⟨v, (hins _ _).2 (.inr (.inr ⟨hv, ?_⟩)), hb⟩
        rintro rfl
        exact hnl hu

end BB
