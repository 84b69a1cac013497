import Verif.Lemmas.BlockSize
import Verif.Lemmas.Blocked

/-! Lemmas about the block size generator: the loops. -/

namespace BB

variable {R : Type}

/-- The state before the last border was placed still had a block that was too large (or was the initial one). -/
def BSPrev (n mn mx : Nat) (order done : List Nat) : Prop :=
  done = [] ∨ ∃ d1 j s1, done = d1 ++ [j] ∧ BSInv n mn mx order d1 s1 ∧ s1.large ≠ []

/-- A state in which a border is to be chosen from `rest`, but none of them is possible. -/
def BSStuck (n mn mx : Nat) (order : List Nat) (done rest : List Nat) (s : BSState) : Prop :=
  BSInv n mn mx order done s ∧ rest ≠ [] ∧ s.large ≠ [] ∧
    (∀ j ∈ rest, ∃ o, order[j]? = some o ∧ o + 1 < n ∧ o + 1 ∉ s.borders) ∧
    ∀ j ∈ rest, ∀ o a b, order[j]? = some o → ¬ Splits mn s.borders (o + 1) a b

/-- `Q` is preserved when one of the positions `E` is turned into a border: the one that leaves the largest smaller part. -/
def BSStep (n mn mx : Nat) (order : List Nat) (Q : List Nat → Prop) (E done0 : List Nat) : Prop :=
  ∀ (done : List Nat) (s : BSState) (j o a b : Nat), (∀ j ∈ done0, j ∈ done) → BSInv n mn mx order done s → s.large ≠ [] → Q done → j ∈ E →
    order[j]? = some o → o + 1 ∉ s.borders → Splits mn s.borders (o + 1) a b →
    (∀ j' ∈ E, j' ∉ done → ∀ o' a' b', order[j']? = some o' → Splits mn s.borders (o' + 1) a' b' →
      min (o' + 1 - a') (b' - (o' + 1)) ≤ min (o + 1 - a) (b - (o + 1))) → Q (done ++ [j])

theorem groupLoop_ok {n mn mx : Nat} {order : List Nat} (hinj : ∀ i j o : Nat, order[i]? = some o → order[j]? = some o → i = j)
    (Q : List Nat → Prop) (E done0 : List Nat) (hQ : BSStep n mn mx order Q E done0)
    (fuel : Nat) (equal done : List Nat) (s : BSState) (hf : equal.length ≤ fuel) (hE : ∀ j ∈ E, j ∈ equal ∨ j ∈ done)
    (hE' : ∀ j ∈ equal, j ∈ E) (h0 : ∀ j ∈ done0, j ∈ done)
    (h : BSInv n mn mx order done s) (hp : Q done) (hl : s.large ≠ [])
    (he : ∀ j ∈ equal, ∃ o, order[j]? = some o ∧ o + 1 < n ∧ o + 1 ∉ s.borders) :
    (∃ s' d', groupLoop mn mx order fuel equal s = .ok s' ∧ BSInv n mn mx order (done ++ d') s' ∧ Q (done ++ d') ∧
      (∀ j ∈ d', j ∈ equal) ∧ (s'.large = [] ∧ d' ≠ [] ∨ ∀ j ∈ equal, j ∈ d')) ∨
    (groupLoop mn mx order fuel equal s = .error .ub ∧ ∃ s' d' rest, BSStuck n mn mx order (done ++ d') rest s' ∧ Q (done ++ d') ∧
      (∀ j ∈ d', j ∈ equal) ∧ (∀ j ∈ rest, j ∈ equal) ∧ (∀ j ∈ equal, j ∈ d' ∨ j ∈ rest)) := by
  induction fuel generalizing equal done s with
  | zero =>
    have : equal = [] := List.length_eq_zero_iff.1 (by omega)
    subst this
    left
    exact ⟨s, [], by simp [groupLoop], by simpa using h, by simpa using hp, by simp, by simp⟩
  | succ fuel ih =>
    by_cases hne : equal = []
    · subst hne
      left
      exact ⟨s, [], by simp [groupLoop], by simpa using h, by simpa using hp, by simp, by simp⟩
    have hz0 : 0 ∈ s.borders := (h.mem 0).2 (.inl rfl)
    have hn : n ∈ s.borders := (h.mem n).2 (.inr (.inl rfl))
    obtain ⟨⟨m, nx⟩, e, hP⟩ := pickNext_ok (mn := mn) h.sorted hz0 hn equal [] (0, none) he ⟨by simp, rfl⟩
    rw [List.nil_append] at hP
    rcases nx with _ | nx
    · right
      refine ⟨by simp [groupLoop, hne, e], s, [], equal, ⟨by simpa using h, hne, hl, he, ?_⟩, by simpa using hp, by simp, by simp, by simp⟩
      intro j hj o a b ho hsp
      have h1 := hP.1 j hj o a b ho hsp
      have h2 : m = 0 := hP.2
      obtain ⟨-, h3, h4, -⟩ := hsp
      simp only at h1
      omega
    · obtain ⟨hbest, hmem, o, b, ho, hi, hsp, hlft, hrgt, hm⟩ := hP
      have hpl := h.place ho hi hsp hlft hrgt
      have hpp : Q (done ++ [nx.j]) := by
        obtain ⟨o', ho', -, hb'⟩ := he nx.j hmem
        rw [ho] at ho'; cases ho'
        rw [hi] at hsp hlft hrgt
        refine hQ done s nx.j o nx.leftIdx b h0 h hl hp (hE' _ hmem) ho hb' hsp ?_
        intro j hj hjd o' a' b' ho' hsp'
        have := hbest j ((hE j hj).resolve_right hjd) o' a' b' ho' hsp'
        rw [hm, hlft, hrgt] at this
        exact this
      have estep : groupLoop mn mx order (fuel + 1) equal s =
          if (placeBorder mx s nx).large = [] then .ok (placeBorder mx s nx)
          else groupLoop mn mx order fuel (equal.filter (· ≠ nx.j)) (placeBorder mx s nx) := by
        simp [groupLoop, hne, e]
      rw [estep]
      by_cases hl' : (placeBorder mx s nx).large = []
      · left
        rw [if_pos hl']
        exact ⟨_, [nx.j], rfl, hpl, hpp, by simpa using hmem, .inl ⟨hl', by simp⟩⟩
      · rw [if_neg hl']
        have hlen : (equal.filter (· ≠ nx.j)).length < equal.length := by
          apply List.length_filter_lt_length_iff_exists.2
          exact ⟨nx.j, hmem, by simp⟩
        have he' : ∀ j ∈ equal.filter (· ≠ nx.j), ∃ o, order[j]? = some o ∧ o + 1 < n ∧ o + 1 ∉ (placeBorder mx s nx).borders := by
          intro j hj
          simp only [List.mem_filter, decide_eq_true_eq] at hj
          obtain ⟨o', ho', hn', hb'⟩ := he j hj.1
          refine ⟨o', ho', hn', ?_⟩
          rw [hpl.mem]
          rintro (hz | hz | ⟨j', hj', o2, ho2, hz⟩)
          · omega
          · omega
          · obtain rfl : o' = o2 := by omega
            rcases List.mem_append.1 hj' with hj' | hj'
            · exact hb' ((h.mem _).2 (.inr (.inr ⟨j', hj', o', ho2, rfl⟩)))
            · simp only [List.mem_singleton] at hj'
              subst hj'
              exact hj.2 (hinj _ _ _ ho' ho2)
        rcases ih (equal.filter (· ≠ nx.j)) (done ++ [nx.j]) (placeBorder mx s nx) (by omega)
          (by
            intro j hj
            by_cases hjn : j = nx.j
            · right; simp [hjn]
            · rcases hE j hj with h | h
              · left; simp [h, hjn]
              · right; simp [h])
          (fun j hj => hE' j (List.mem_filter.1 hj).1) (fun j hj => List.mem_append_left _ (h0 j hj)) hpl hpp hl' he' with
          ⟨s', d', e', i', p', sub, fin⟩ | ⟨e', s', d', rest, st, q', sub, sub2, cov⟩
        · left
          refine ⟨s', nx.j :: d', e', by simpa using i', by simpa using p', ?_, ?_⟩
          · intro j hj
            rcases List.mem_cons.1 hj with rfl | hj
            · exact hmem
            · exact (List.mem_filter.1 (sub j hj)).1
          · rcases fin with fin | fin
            · exact .inl ⟨fin.1, by simp⟩
            · right
              intro j hj
              by_cases hjn : j = nx.j
              · simp [hjn]
              · exact List.mem_cons_of_mem _ (fin j (by simp [hj, hjn]))
        · right
          refine ⟨e', s', nx.j :: d', rest, by simpa using st, by simpa using q', ?_, ?_, ?_⟩
          · intro j hj
            rcases List.mem_cons.1 hj with rfl | hj
            · exact hmem
            · exact (List.mem_filter.1 (sub j hj)).1
          · intro j hj
            exact (List.mem_filter.1 (sub2 j hj)).1
          · intro j hj
            by_cases hjn : j = nx.j
            · simp [hjn]
            · rcases cov j (by simp [hj, hjn]) with h | h
              · exact .inl (List.mem_cons_of_mem _ h)
              · exact .inr h

/-- What the positions of one group have in common. -/
def SameDetect (detect : List R) (order : List Nat) (i j : Nat) : Prop :=
  order[i]?.bind (detect[·]?) = order[j]?.bind (detect[·]?)

theorem equalRun_spec [DecidableEq R] (detect : List R) (order : List Nat) (i : Nat) (hi : i < detect.length) :
    (i :: equalRun detect order i) = List.range' i (equalRun detect order i).length.succ ∧
    i + (equalRun detect order i).length.succ ≤ detect.length ∧
    (∀ j ∈ i :: equalRun detect order i, SameDetect detect order i j) := by
  have hpre : equalRun detect order i <+: List.range' (i + 1) (detect.length - (i + 1)) := List.takeWhile_prefix _
  have hlen := hpre.length_le
  rw [List.length_range'] at hlen
  refine ⟨?_, by omega, ?_⟩
  · rw [List.range'_succ]
    congr 1
    have := List.prefix_iff_eq_take.1 hpre
    rw [this]
    rw [List.take_range'_of_length_ge hlen, List.length_range']
  · intro j hj
    rcases List.mem_cons.1 hj with rfl | hj
    · rfl
    · have := List.all_takeWhile (p := fun j => decide ((order[i]?.bind (detect[·]?)) = (order[j]?.bind (detect[·]?))))
        (l := List.range' (i + 1) (detect.length - (i + 1)))
      have := List.all_eq_true.1 this j hj
      simpa [SameDetect] using this

/-- The run is maximal. -/
theorem equalRun_max [DecidableEq R] (detect : List R) (order : List Nat) (i : Nat) (hi : i < detect.length)
    (hlt : i + ((equalRun detect order i).length + 1) < detect.length) :
    ¬ SameDetect detect order i (i + ((equalRun detect order i).length + 1)) := by
  intro hs
  have key : ∀ (m : Nat) (p : Nat → Bool) (a : Nat), ((List.range' a m).takeWhile p).length < m →
      p (a + ((List.range' a m).takeWhile p).length) = false := by
    intro m p
    induction m with
    | zero => intro a h; simp at h
    | succ m ih =>
      intro a h
      rw [List.range'_succ] at h ⊢
      by_cases hpa : p a
      · simp only [List.takeWhile_cons, hpa, if_true, List.length_cons] at h ⊢
        have := ih (a + 1) (by omega)
        rw [← this]; congr 1; omega
      · simp only [List.takeWhile_cons, hpa]
        simpa using hpa
  have hk := key (detect.length - (i + 1)) (fun j => decide ((order[i]?.bind (detect[·]?)) = (order[j]?.bind (detect[·]?)))) (i + 1)
    (by unfold equalRun at hlt; omega)
  have e2 : i + 1 + (List.takeWhile (fun j => decide ((order[i]?.bind (detect[·]?)) = (order[j]?.bind (detect[·]?))))
      (List.range' (i + 1) (detect.length - (i + 1)))).length = i + ((equalRun detect order i).length + 1) := by
    unfold equalRun; omega
  rw [e2] at hk
  simp only [decide_eq_false_iff_not] at hk
  exact hk hs

/-- `order` is a possible result of sorting the indices of `detect` by decreasing value. -/
def IsSortDesc [LE R] (detect : List R) (order : List Nat) : Prop :=
  order.Perm (List.range detect.length) ∧
  order.Pairwise (fun a b => ∀ x y, detect[a]? = some x → detect[b]? = some y → y ≤ x)

theorem IsSortDesc.get [LE R] {detect : List R} {order : List Nat} (h : IsSortDesc detect order) {j : Nat} (hj : j < detect.length) :
    ∃ o, order[j]? = some o ∧ o < detect.length := by
  have hl : order.length = detect.length := by simpa using h.1.length_eq
  refine ⟨order[j], by simp [hl, hj], ?_⟩
  have : order[j] ∈ order := List.getElem_mem _
  simpa using h.1.mem_iff.1 this

theorem IsSortDesc.inj [LE R] {detect : List R} {order : List Nat} (h : IsSortDesc detect order) :
    ∀ i j o : Nat, order[i]? = some o → order[j]? = some o → i = j := by
  intro i j o hi hj
  have hnd : order.Nodup := h.1.nodup_iff.2 List.nodup_range
  obtain ⟨hi', ei⟩ := List.getElem?_eq_some_iff.1 hi
  obtain ⟨hj', ej⟩ := List.getElem?_eq_some_iff.1 hj
  exact (List.Nodup.getElem_inj_iff hnd).1 (ei.trans ej.symm)

/-- Of two positions, the earlier one has the greater (or equal) detection value. -/
theorem IsSortDesc.mono [LE R] {detect : List R} {order : List Nat} (h : IsSortDesc detect order) {i j : Nat} (hij : i < j)
    {a b : Nat} {x y : R} (ha : order[i]? = some a) (hb : order[j]? = some b) (hx : detect[a]? = some x) (hy : detect[b]? = some y) :
    y ≤ x := by
  obtain ⟨hi', ei⟩ := List.getElem?_eq_some_iff.1 ha
  obtain ⟨hj', ej⟩ := List.getElem?_eq_some_iff.1 hb
  have := List.pairwise_iff_getElem.1 h.2 i j hi' hj' hij
  exact this x y (by rw [ei]; exact hx) (by rw [ej]; exact hy)

/-- Chosen positions have greater (or equal) detection values than those that were not chosen. -/
def Steepest [LE R] (detect : List R) (order done : List Nat) : Prop :=
  ∀ j j', j ∈ done → j' < detect.length → j' ∉ done → ∀ a b x y, order[j]? = some a → order[j']? = some b →
    detect[a]? = some x → detect[b]? = some y → y ≤ x

/-- `Q` is preserved when a position of the greatest remaining detection value is turned into a border: among those of the
same value that can be chosen the one that leaves the largest smaller part. -/
def BSGreedyStep [LE R] (mn mx : Nat) (detect : List R) (order : List Nat) (Q : List Nat → Prop) : Prop :=
  ∀ (done : List Nat) (s : BSState) (j o a b : Nat), BSInv (detect.length + 1) mn mx order done s → s.large ≠ [] → Q done → j < detect.length →
    order[j]? = some o → o + 1 ∉ s.borders → Splits mn s.borders (o + 1) a b →
    (∀ j', j' < detect.length → j' ∉ done → ∀ o' x y, order[j']? = some o' → detect[o]? = some x → detect[o']? = some y → y ≤ x) →
    (∀ j', j' < detect.length → j' ∉ done → SameDetect detect order j j' → ∀ o' a' b', order[j']? = some o' →
      Splits mn s.borders (o' + 1) a' b' → min (o' + 1 - a') (b' - (o' + 1)) ≤ min (o + 1 - a) (b - (o + 1))) → Q (done ++ [j])

theorem BSPrev.step [LE R] (mn mx : Nat) (detect : List R) (order : List Nat) :
    BSGreedyStep mn mx detect order (BSPrev (detect.length + 1) mn mx order) := by
  intro done s j o a b h hl _ _ _ _ _ _ _
  exact .inr ⟨done, j, s, rfl, h, hl⟩

theorem bsLoop_ok [PartialOrder R] [DecidableEq R] {mn mx : Nat} {detect : List R} {order : List Nat} (ho : IsSortDesc detect order)
    (Q : List Nat → Prop) (hQ : BSGreedyStep mn mx detect order Q)
    (fuel i : Nat) (done : List Nat) (s : BSState) (hi : i ≤ detect.length) (hf : detect.length - i ≤ fuel)
    (h : BSInv (detect.length + 1) mn mx order done s) (hp : Q done) (hl : s.large ≠ [])
    (hd : ∀ j, j ∈ done ↔ j < i) :
    (∃ s' d', bsLoop mn mx detect order fuel i s = .ok s' ∧ BSInv (detect.length + 1) mn mx order d' s' ∧
      Q d' ∧ (∀ j ∈ d', j < detect.length) ∧ Steepest detect order d' ∧
      (s'.large = [] ∧ d' ≠ [] ∨ ∀ j, j < detect.length → j ∈ d')) ∨
    (bsLoop mn mx detect order fuel i s = .error .ub ∧ ∃ s' d' rest i' k, BSStuck (detect.length + 1) mn mx order d' rest s' ∧ Q d' ∧
      i' + k ≤ detect.length ∧ 0 < k ∧ (∀ j ∈ rest, i' ≤ j ∧ j < i' + k) ∧ (∀ j, j < i' + k → j ∈ d' ∨ j ∈ rest) ∧
      (∀ j, i' ≤ j → j < i' + k → SameDetect detect order i' j) ∧
      (i' + k < detect.length → ¬ SameDetect detect order i' (i' + k))) := by
  induction fuel generalizing i done s with
  | zero =>
    obtain rfl : i = detect.length := by omega
    left
    refine ⟨s, done, by simp [bsLoop], h, hp, fun j hj => (hd j).1 hj, ?_, .inr fun j hj => (hd j).2 hj⟩
    intro j j' _ hj' hn
    exact absurd ((hd j').2 hj') hn
  | succ fuel ih =>
    by_cases hie : i = detect.length
    · left
      refine ⟨s, done, by simp [bsLoop, hie], h, hp, fun j hj => by have := (hd j).1 hj; omega, ?_, .inr fun j hj => (hd j).2 (by omega)⟩
      intro j j' _ hj' hn
      exact absurd ((hd j').2 (by omega)) hn
    have hi' : i < detect.length := by omega
    obtain ⟨er, hle, hsame⟩ := equalRun_spec detect order i hi'
    have hinj := ho.inj
    set equal := i :: equalRun detect order i with hequal
    have hmemE : ∀ j, j ∈ equal ↔ i ≤ j ∧ j < i + equal.length := by
      intro j
      have : equal.length = (equalRun detect order i).length.succ := by simp [hequal]
      rw [this, er, List.mem_range'_1]
    have hlenE : equal.length = (equalRun detect order i).length + 1 := by simp [hequal]
    have he : ∀ j ∈ equal, ∃ o, order[j]? = some o ∧ o + 1 < detect.length + 1 ∧ o + 1 ∉ s.borders := by
      intro j hj
      have hj' := (hmemE j).1 hj
      obtain ⟨o, hoj, hlt⟩ := ho.get (j := j) (by omega)
      refine ⟨o, hoj, by omega, ?_⟩
      rw [h.mem]
      rintro (hz | hz | ⟨j2, hj2, o2, ho2, hz⟩)
      · omega
      · omega
      · obtain rfl : o = o2 := by omega
        have := hinj _ _ _ hoj ho2
        have := (hd j2).1 hj2
        omega
    have steep : ∀ d', (∀ j ∈ d', j ∈ equal) → Steepest detect order (done ++ d') := by
      intro d' hsub j j' hj hj' hnj a b x y ha hb hx hy
      have h1 : j < i + equal.length := by
        rcases List.mem_append.1 hj with hj | hj
        · have := (hd j).1 hj; omega
        · exact ((hmemE j).1 (hsub j hj)).2
      have h2 : i ≤ j' := by
        by_contra hc
        exact hnj (List.mem_append_left _ ((hd j').2 (by omega)))
      by_cases hlt : j < j'
      · exact ho.mono hlt ha hb hx hy
      · have s1 := hsame j ((hmemE j).2 ⟨by omega, h1⟩)
        have s2 := hsame j' ((hmemE j').2 ⟨h2, by omega⟩)
        unfold SameDetect at s1 s2
        rw [s1] at s2
        rw [ha, hb] at s2
        simp only [Option.bind_some] at s2
        rw [hx, hy] at s2
        cases s2
        exact le_refl _
    have estep : bsLoop mn mx detect order (fuel + 1) i s = (groupLoop mn mx order equal.length equal s >>= fun s =>
          if s.large = [] then .ok s else bsLoop mn mx detect order fuel (i + equal.length) s) := by
      simp [bsLoop, hie, hequal]
    rw [estep]
    have hval : ∀ j, j < detect.length → ∃ o x, order[j]? = some o ∧ detect[o]? = some x ∧ order[j]?.bind (detect[·]?) = some x := by
      intro j hj
      obtain ⟨o, eo, ho'⟩ := ho.get hj
      exact ⟨o, detect[o], eo, List.getElem?_eq_getElem ho', by rw [eo, Option.bind_some, List.getElem?_eq_getElem ho']⟩
    have hstep : BSStep (detect.length + 1) mn mx order Q equal done := by
      intro dn t j o a b hdn hI hlg hq hj hoj hnb hsp hbest
      have hjr := (hmemE j).1 hj
      refine hQ dn t j o a b hI hlg hq (by omega) hoj hnb hsp ?_ ?_
      · intro j' hj' hjd o' x y eo' ex ey
        have hge : i ≤ j' := by
          by_contra hc
          exact hjd (hdn j' ((hd j').2 (by omega)))
        by_cases hin : j' < i + equal.length
        · have s1 := hsame j hj
          have s2 := hsame j' ((hmemE j').2 ⟨hge, hin⟩)
          unfold SameDetect at s1 s2
          rw [s1, hoj, eo', Option.bind_some, Option.bind_some, ex, ey] at s2
          cases s2; exact le_refl _
        · exact ho.mono (show j < j' by omega) hoj eo' ex ey
      · intro j' hj' hjd hsm o' a' b' eo' hsp'
        have hge : i ≤ j' := by
          by_contra hc
          exact hjd (hdn j' ((hd j').2 (by omega)))
        refine hbest j' ?_ hjd o' a' b' eo' hsp'
        rw [hmemE]
        refine ⟨hge, ?_⟩
        by_contra hc
        have hlt : i + equal.length < detect.length := by omega
        obtain ⟨oa, xa, ea, va, wa⟩ := hval i hi'
        obtain ⟨ob, xb, eb, vb, wb⟩ := hval (i + equal.length) hlt
        obtain ⟨oc, xc, ec, vc, wc⟩ := hval j' hj'
        have s1 := hsame j hj
        unfold SameDetect at s1 hsm
        rw [← s1, wa, wc] at hsm
        cases hsm
        have h1 : xb ≤ xa := ho.mono (show i < i + equal.length by omega) ea eb va vb
        have h2 : xa ≤ xb := by
          rcases Nat.lt_or_eq_of_le (not_lt.1 hc) with h | h
          · exact ho.mono h eb ec vb vc
          · rw [h, wc] at wb; cases wb; exact le_refl _
        refine equalRun_max detect order i hi' (by rw [hlenE] at hlt; exact hlt) ?_
        unfold SameDetect
        rw [← hlenE, wa, wb, le_antisymm h1 h2]
    rcases groupLoop_ok hinj Q equal done hstep equal.length equal done s (le_refl _) (fun j hj => .inl hj) (fun j hj => hj) (fun j hj => hj) h hp hl he with
      ⟨s', d', e', i', p', sub, fin⟩ | ⟨e', s', d', rest, st, q', sub, sub2, cov⟩
    · rw [e', bind_ok']
      have hdlt : ∀ j ∈ done ++ d', j < detect.length := by
        intro j hj
        rcases List.mem_append.1 hj with hj | hj
        · have := (hd j).1 hj; omega
        · have := (hmemE j).1 (sub j hj); omega
      by_cases hle' : s'.large = []
      · left
        rw [if_pos hle']
        refine ⟨s', done ++ d', rfl, i', p', hdlt, steep d' sub, .inl ⟨hle', ?_⟩⟩
        have : d' ≠ [] := by
          rcases fin with fin | fin
          · exact fin.2
          · have := fin i ((hmemE i).2 ⟨le_refl _, by omega⟩)
            rintro rfl
            cases this
        simp [this]
      · rw [if_neg hle']
        have hcov : ∀ j ∈ equal, j ∈ d' := fin.resolve_left fun c => hle' c.1
        refine ih (i + equal.length) (done ++ d') s' (by omega) (by omega) i' p' hle' ?_
        intro j
        rw [List.mem_append, hd]
        constructor
        · rintro (hj | hj)
          · omega
          · exact ((hmemE j).1 (sub j hj)).2
        · intro hj
          by_cases hji : j < i
          · exact .inl hji
          · exact .inr (hcov j ((hmemE j).2 ⟨by omega, hj⟩))
    · right
      rw [e', bind_error']
      refine ⟨rfl, s', done ++ d', rest, i, equal.length, st, q', by omega, by omega, fun j hj => (hmemE j).1 (sub2 j hj), ?_, ?_, ?_⟩
      · intro j hj
        by_cases hji : j < i
        · exact .inl (List.mem_append_left _ ((hd j).2 hji))
        · rcases cov j ((hmemE j).2 ⟨by omega, hj⟩) with h | h
          · exact .inl (List.mem_append_right _ h)
          · exact .inr h
      · intro j h1 h2
        exact hsame j ((hmemE j).2 ⟨h1, h2⟩)
      · intro hlt hs
        exact equalRun_max detect order i hi' (by rw [hlenE] at hlt; exact hlt) (by rw [hlenE] at hs; exact hs)

/-! ### Borders and block sizes -/

theorem diffs_offs {a : Nat} {l : List Nat} (hs : (a :: l).Pairwise (· < ·)) :
    (diffs (a :: l)).length = l.length ∧
    (∀ i, i ≤ l.length → (a :: l)[i]? = some (a + offs (diffs (a :: l)) i)) ∧
    (∀ d ∈ diffs (a :: l), ∃ u v, Consec (a :: l) u v ∧ d = v - u) := by
  induction l generalizing a with
  | nil =>
    refine ⟨rfl, ?_, by simp [diffs]⟩
    intro i hi
    simp only [List.length_nil, Nat.le_zero] at hi
    subst hi
    simp [offs, diffs]
  | cons b l ih =>
    obtain ⟨h1, h2, h3⟩ := ih (List.pairwise_cons.1 hs).2
    have hab : a < b := (List.pairwise_cons.1 hs).1 b (by simp)
    refine ⟨by simp [diffs, h1], ?_, ?_⟩
    · intro i hi
      rcases i with _ | i
      · simp [offs]
      · rw [List.getElem?_cons_succ, h2 i (by simp at hi; omega)]
        simp only [diffs, offs, List.take_succ_cons, List.sum_cons]
        congr 1; omega
    · intro d hd
      simp only [diffs, List.mem_cons] at hd
      rcases hd with rfl | hd
      · refine ⟨a, b, ⟨by simp, by simp, hab, ?_⟩, rfl⟩
        intro x hx
        rcases List.mem_cons.1 hx with rfl | hx
        · omega
        · rcases List.mem_cons.1 hx with rfl | hx
          · omega
          · have := (List.pairwise_cons.1 (List.pairwise_cons.1 hs).2).1 x hx; omega
      · obtain ⟨u, v, ⟨hu, hv, huv, hno⟩, rfl⟩ := h3 d hd
        refine ⟨u, v, ⟨List.mem_cons_of_mem _ hu, List.mem_cons_of_mem _ hv, huv, ?_⟩, rfl⟩
        intro x hx
        rcases List.mem_cons.1 hx with rfl | hx
        · left
          rcases List.mem_cons.1 hu with rfl | hu
          · omega
          · have := (List.pairwise_cons.1 hs).1 u (List.mem_cons_of_mem _ hu); omega
        · exact hno x hx

/-- What the sizes of the blocks between borders say about the borders. -/
theorem sizes_spec {n : Nat} {B : List Nat} (hs : B.Pairwise (· < ·)) (h0 : 0 ∈ B) (hn : n ∈ B) (hle : ∀ x ∈ B, x ≤ n) (hpos : 0 < n) :
    (diffs B).sum = n ∧ (∀ d ∈ diffs B, ∃ u v, Consec B u v ∧ d = v - u) ∧
    (∀ x, x ∈ B ↔ ∃ i, i ≤ (diffs B).length ∧ x = offs (diffs B) i) ∧ diffs B ≠ [] := by
  rcases B with _ | ⟨a, l⟩
  · cases h0
  have ha : a = 0 := by
    rcases List.mem_cons.1 h0 with h | h
    · exact h.symm
    · have := (List.pairwise_cons.1 hs).1 0 h; omega
  subst ha
  obtain ⟨h1, h2, h3⟩ := diffs_offs hs
  have mem : ∀ x, x ∈ 0 :: l ↔ ∃ i, i ≤ (diffs (0 :: l)).length ∧ x = offs (diffs (0 :: l)) i := by
    intro x
    rw [List.mem_iff_getElem?]
    constructor
    · rintro ⟨i, hi⟩
      obtain ⟨hi', -⟩ := List.getElem?_eq_some_iff.1 hi
      have := h2 i (by simp at hi'; omega)
      rw [hi] at this
      refine ⟨i, by simp at hi'; omega, ?_⟩
      simpa using this
    · rintro ⟨i, hi, rfl⟩
      exact ⟨i, by rw [h2 i (by omega)]; simp⟩
  have htot : ∀ i, offs (diffs (0 :: l)) i ≤ (diffs (0 :: l)).sum := by
    intro i
    rw [offs]
    conv_rhs => rw [← List.take_append_drop i (diffs (0 :: l)), List.sum_append]
    omega
  refine ⟨?_, h3, mem, ?_⟩
  · obtain ⟨i, hi, e⟩ := (mem n).1 hn
    have h4 : (diffs (0 :: l)).sum ∈ 0 :: l := (mem _).2 ⟨_, le_refl _, by simp [offs]⟩
    have := hle _ h4
    have := htot i
    omega
  · intro hd
    obtain ⟨i, hi, e⟩ := (mem n).1 hn
    rw [hd] at e
    simp [offs] at e
    omega

end BB
