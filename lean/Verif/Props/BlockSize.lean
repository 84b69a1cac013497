import Verif.Lemmas.BlockSizeLoop
import Verif.Lemmas.Detect
import Verif.Props.Blocked
import Verif.SpecBlockSize
import Mathlib.Data.List.Sort

/-!
# C39, C40, C41: block sizes; C28: the whole pipeline

`IsSortDesc detect order` (Lemmas/BlockSizeLoop.lean) says that `order` is a permutation of the indices of
`detect` sorted by decreasing value: any result `std::sort` may produce.  `offs sizes i` is the sum of the
first `i` sizes, i.e. the position of the `i`-th border.
-/

namespace BB

variable {R : Type}

section aux

/-- The cuts made so far are a state of the greedy choice. -/
def IsGreedy [LE R] (mn mx : Nat) (detect : List R) (order done : List Nat) : Prop :=
  ∃ P, Greedy detect (detect.length + 1) mn mx P ∧ ∀ x, x ∈ P ↔ ∃ j ∈ done, ∃ o, order[j]? = some o ∧ x = o + 1

theorem isBlock_iff {n mn mx : Nat} {order done : List Nat} {s : BSState} {P : Finset Nat} (h : BSInv n mn mx order done s)
    (hP : ∀ x, x ∈ P ↔ ∃ j ∈ done, ∃ o, order[j]? = some o ∧ x = o + 1) (hn : ∀ x ∈ P, x < n) (a b : Nat) (hb : b ≤ n) :
    IsBlock n P a b ↔ Consec s.borders a b := by
  have hm : ∀ x, x ∈ s.borders ↔ x = 0 ∨ x = n ∨ x ∈ P := fun x => by rw [h.mem, hP]
  constructor
  · rintro ⟨ha, hb', hab, hno⟩
    refine ⟨(hm a).2 (ha.imp_right .inr), (hm b).2 (.inr hb'), hab, fun x hx => ?_⟩
    rcases (hm x).1 hx with rfl | rfl | hx
    · exact .inl (Nat.zero_le _)
    · exact .inr hb
    · exact hno x hx
  · rintro ⟨ha, hb', hab, hno⟩
    refine ⟨?_, ?_, hab, fun x hx => hno x ((hm x).2 (.inr (.inr hx)))⟩
    · rcases (hm a).1 ha with h | h | h
      · exact .inl h
      · omega
      · exact .inr h
    · rcases (hm b).1 hb' with h | h | h
      · omega
      · exact .inl h
      · exact .inr h

theorem IsBlock.le {n : Nat} {P : Finset Nat} {a b : Nat} (h : IsBlock n P a b) (hn : ∀ x ∈ P, x < n) : b ≤ n := by
  rcases h.2.1 with h | h
  · omega
  · exact (hn b h).le

/-- The state of the generator, seen as a state of the greedy choice. -/
structure BSView [LE R] (mn mx : Nat) (detect : List R) (order done : List Nat) (s : BSState) (P : Finset Nat) : Prop where
  mem : ∀ x, x ∈ P ↔ ∃ j ∈ done, ∃ o, order[j]? = some o ∧ x = o + 1
  lt : ∀ x ∈ P, x < detect.length + 1
  block : ∀ a b, IsBlock (detect.length + 1) P a b ↔ Consec s.borders a b
  done_iff : ∀ j o, order[j]? = some o → (o + 1 ∈ P ↔ j ∈ done)
  place : ∀ x, IsOpen (detect.length + 1) P x ↔ ∃ j o, j < detect.length ∧ j ∉ done ∧ order[j]? = some o ∧ x = o + 1
  borders : ∀ x, IsOpen (detect.length + 1) P x ↔ 0 < x ∧ x < detect.length + 1 ∧ x ∉ s.borders

theorem BSView.mk' [LE R] {mn mx : Nat} {detect : List R} {order done : List Nat} {s : BSState} {P : Finset Nat} (ho : IsSortDesc detect order)
    (h : BSInv (detect.length + 1) mn mx order done s) (hP : ∀ x, x ∈ P ↔ ∃ j ∈ done, ∃ o, order[j]? = some o ∧ x = o + 1) :
    BSView mn mx detect order done s P := by
  have hlen : order.length = detect.length := by simpa using ho.1.length_eq
  have hlt : ∀ x ∈ P, x < detect.length + 1 := by
    intro x hx
    obtain ⟨j, -, o, e, rfl⟩ := (hP x).1 hx
    obtain ⟨hj, -⟩ := List.getElem?_eq_some_iff.1 e
    obtain ⟨o', e', h'⟩ := ho.get (j := j) (by omega)
    rw [e] at e'; cases e'; omega
  have hdone : ∀ j o, order[j]? = some o → (o + 1 ∈ P ↔ j ∈ done) := by
    intro j o e
    rw [hP]
    constructor
    · rintro ⟨j', hj', o', e', h'⟩
      obtain rfl : o = o' := by omega
      rw [ho.inj _ _ _ e e']; exact hj'
    · intro hj; exact ⟨j, hj, o, e, rfl⟩
  refine ⟨hP, hlt, fun a b => ?_, hdone, fun x => ?_, fun x => ?_⟩
  · constructor
    · intro hb
      exact (isBlock_iff h hP hlt a b (hb.le hlt)).1 hb
    · intro hb
      refine (isBlock_iff h hP hlt a b ?_).2 hb
      rcases (h.mem b).1 hb.2.1 with h | h | ⟨j, hj, o, e, rfl⟩
      · omega
      · omega
      · exact (hlt _ ((hP _).2 ⟨j, hj, o, e, rfl⟩)).le
  · constructor
    · rintro ⟨h1, h2, h3⟩
      have hu : x - 1 ∈ order := by rw [ho.1.mem_iff]; simp; omega
      obtain ⟨j, hj⟩ := List.mem_iff_getElem?.1 hu
      obtain ⟨hj', -⟩ := List.getElem?_eq_some_iff.1 hj
      have e : x = x - 1 + 1 := by omega
      refine ⟨j, x - 1, by omega, fun hd => h3 ?_, hj, e⟩
      rw [e]; exact (hdone j _ hj).2 hd
    · rintro ⟨j, o, hj, hd, e, rfl⟩
      obtain ⟨o', e', h'⟩ := ho.get hj
      rw [e] at e'; cases e'
      exact ⟨by omega, by omega, fun hc => hd ((hdone j o e).1 hc)⟩
  · constructor
    · rintro ⟨h1, h2, h3⟩
      refine ⟨h1, h2, fun hc => ?_⟩
      rcases (h.mem x).1 hc with h | h | h
      · omega
      · omega
      · exact h3 ((hP x).2 h)
    · rintro ⟨h1, h2, h3⟩
      exact ⟨h1, h2, fun hc => h3 ((h.mem x).2 (.inr (.inr ((hP x).1 hc))))⟩

theorem BSView.unfinished [LE R] {mn mx : Nat} {detect : List R} {order done : List Nat} {s : BSState} {P : Finset Nat}
    (h : BSInv (detect.length + 1) mn mx order done s) (v : BSView mn mx detect order done s P) (hl : s.large ≠ []) :
    ¬ Finished (detect.length + 1) mx P := by
  rintro ⟨hne, hall⟩
  obtain ⟨a, ha⟩ := List.exists_mem_of_ne_nil _ hl
  rcases h.tight a ha with ⟨hd, -⟩ | ⟨b, hb, hbig⟩
  · apply hne
    apply Finset.eq_empty_of_forall_notMem
    intro x hx
    obtain ⟨j, hj, -⟩ := (v.mem x).1 hx
    rw [hd] at hj; cases hj
  · have := hall a b ((v.block a b).2 hb)
    omega

theorem BSView.leaves [LE R] {mn mx : Nat} {detect : List R} {order done : List Nat} {s : BSState} {P : Finset Nat}
    (v : BSView mn mx detect order done s P) (x m : Nat) (hm : mn ≤ m) (h : Leaves (detect.length + 1) P x m) :
    ∃ a b, Splits mn s.borders x a b ∧ m = min (x - a) (b - x) := by
  obtain ⟨a, b, hb, h1, h2, rfl⟩ := h
  exact ⟨a, b, ⟨(v.block a b).1 hb, h1, h2, by omega, by omega⟩, rfl⟩

theorem IsGreedy.step [PartialOrder R] (mn mx : Nat) {detect : List R} {order : List Nat} (ho : IsSortDesc detect order) :
    BSGreedyStep mn mx detect order (fun d => BSPrev (detect.length + 1) mn mx order d ∧ IsGreedy mn mx detect order d) := by
  intro done s j o a b h hl hq hj hoj hnb hsp hmax hbest
  refine ⟨.inr ⟨done, j, s, rfl, h, hl⟩, ?_⟩
  obtain ⟨-, P, hG, hP⟩ := hq
  have v := BSView.mk' ho h hP
  have hoP : ∀ x, x = o + 1 → IsOpen (detect.length + 1) P x := by
    rintro x rfl
    obtain ⟨o', e', h'⟩ := ho.get hj
    rw [hoj] at e'; cases e'
    exact (v.borders _).2 ⟨by omega, by omega, hnb⟩
  have hjd : j ∉ done := fun hc => (hoP _ rfl).2.2 ((v.done_iff j o hoj).2 hc)
  have hst : IsSteepest detect (detect.length + 1) P (o + 1) := by
    refine ⟨hoP _ rfl, fun y hy u w hu hw => ?_⟩
    obtain ⟨j', o', hj', hd', e', rfl⟩ := (v.place y).1 hy
    rw [Nat.add_sub_cancel] at hu hw
    exact hmax j' hj' hd' o' u w e' hu hw
  refine ⟨insert (o + 1) P, .cut P (o + 1) (min (o + 1 - a) (b - (o + 1))) hG (v.unfinished h hl) hst
    ⟨a, b, (v.block a b).2 hsp.1, hsp.2.1, hsp.2.2.1, rfl⟩ (by obtain ⟨-, -, -, h1, h2⟩ := hsp; omega) ?_, ?_⟩
  · intro y m' hy hm' hle
    obtain ⟨a', b', hs', rfl⟩ := v.leaves y m' hle hm'
    obtain ⟨j', o', hj', hd', e', rfl⟩ := (v.place y).1 hy.1
    refine hbest j' hj' hd' ?_ o' a' b' e' hs'
    obtain ⟨p, ep, hp⟩ := ho.get hj
    obtain ⟨q, eq, hq⟩ := ho.get hj'
    rw [hoj] at ep; cases ep
    rw [e'] at eq; cases eq
    have h1 := hst.2 _ hy.1 _ _ (List.getElem?_eq_getElem (show o + 1 - 1 < detect.length by omega)) (List.getElem?_eq_getElem (show o' + 1 - 1 < detect.length by omega))
    have h2 := hy.2 _ hst.1 _ _ (List.getElem?_eq_getElem (show o' + 1 - 1 < detect.length by omega)) (List.getElem?_eq_getElem (show o + 1 - 1 < detect.length by omega))
    have h3 := le_antisymm h2 h1
    simp only [Nat.add_sub_cancel] at h3
    unfold SameDetect
    rw [hoj, e', Option.bind_some, Option.bind_some, List.getElem?_eq_getElem hp, List.getElem?_eq_getElem hq, h3]
  · intro x
    rw [Finset.mem_insert, hP]
    constructor
    · rintro (rfl | ⟨j', hj', o', e', rfl⟩)
      · exact ⟨j, by simp, o, hoj, rfl⟩
      · exact ⟨j', by simp [hj'], o', e', rfl⟩
    · rintro ⟨j', hj', o', e', rfl⟩
      rcases List.mem_append.1 hj' with hj' | hj'
      · exact .inr ⟨j', hj', o', e', rfl⟩
      · simp only [List.mem_singleton] at hj'
        subst hj'
        rw [hoj] at e'; cases e'
        exact .inl rfl

theorem getBlockSize_cases [PartialOrder R] [DecidableEq R] (mn mx : Nat) {detect : List R} {order : List Nat} (ho : IsSortDesc detect order) :
    (∃ s d, getBlockSize mn mx detect order = .ok (diffs s.borders) ∧ BSInv (detect.length + 1) mn mx order d s ∧
      (BSPrev (detect.length + 1) mn mx order d ∧ IsGreedy mn mx detect order d) ∧ (∀ j ∈ d, j < detect.length) ∧ Steepest detect order d ∧
      (s.large = [] ∧ d ≠ [] ∨ ∀ j, j < detect.length → j ∈ d)) ∨
    (getBlockSize mn mx detect order = .error .ub ∧ ∃ s d rest i k, BSStuck (detect.length + 1) mn mx order d rest s ∧
      (BSPrev (detect.length + 1) mn mx order d ∧ IsGreedy mn mx detect order d) ∧
      i + k ≤ detect.length ∧ 0 < k ∧ (∀ j ∈ rest, i ≤ j ∧ j < i + k) ∧ (∀ j, j < i + k → j ∈ d ∨ j ∈ rest) ∧
      (∀ j, i ≤ j → j < i + k → SameDetect detect order i j) ∧
      (i + k < detect.length → ¬ SameDetect detect order i (i + k))) := by
  rcases bsLoop_ok ho _ (IsGreedy.step mn mx ho) detect.length 0 [] ⟨setInsert 0 [detect.length + 1], [0]⟩ (by omega) (by omega)
    (BSInv.init (n := detect.length + 1) (mn := mn) (mx := mx) (order := order) (by omega)) ⟨.inl rfl, ∅, .start, by simp⟩ (by simp) (by simp) with
    ⟨s, d, e, h⟩ | ⟨e, h⟩
  · exact .inl ⟨s, d, by rw [getBlockSize, e]; rfl, h⟩
  · exact .inr ⟨by rw [getBlockSize, e]; rfl, h⟩

theorem BSInv.sizes {n mn mx : Nat} {order d : List Nat} {s : BSState} (h : BSInv n mn mx order d s) (hpos : 0 < n)
    (hle : ∀ x ∈ s.borders, x ≤ n) :
    (diffs s.borders).sum = n ∧ (∀ x ∈ diffs s.borders, ∃ u v, Consec s.borders u v ∧ x = v - u) ∧
    (∀ x, x ∈ s.borders ↔ ∃ i, i ≤ (diffs s.borders).length ∧ x = offs (diffs s.borders) i) ∧ diffs s.borders ≠ [] :=
  sizes_spec h.sorted ((h.mem 0).2 (.inl rfl)) ((h.mem n).2 (.inr (.inl rfl))) hle hpos

theorem BSInv.le [PartialOrder R] {mn mx : Nat} {detect : List R} {order d : List Nat} {s : BSState} (ho : IsSortDesc detect order)
    (h : BSInv (detect.length + 1) mn mx order d s) (hd : ∀ j ∈ d, j < detect.length) : ∀ x ∈ s.borders, x ≤ detect.length + 1 := by
  intro x hx
  rcases (h.mem x).1 hx with rfl | rfl | ⟨j, hj, o, hoj, rfl⟩
  · omega
  · omega
  · obtain ⟨o', e, hlt⟩ := ho.get (hd j hj)
    rw [e] at hoj; cases hoj
    omega

end aux

/-- C39: whenever block size generation returns, the sizes are positive and sum to the dimension, i.e. to the number of
detection values plus one; and it can fail only by undefined behaviour.  (Missing: that it always returns,
which is false, see `C39_small_dimension_is_ub`.) -/
theorem C39_sum_partial [PartialOrder R] [DecidableEq R] (mn mx : Nat) (detect : List R) (order : List Nat) (ho : IsSortDesc detect order) :
    (∃ sizes, getBlockSize mn mx detect order = .ok sizes ∧ sizes.sum = detect.length + 1 ∧ ∀ x ∈ sizes, 0 < x) ∨
    getBlockSize mn mx detect order = .error .ub := by
  rcases getBlockSize_cases mn mx ho with ⟨s, d, e, h, -, hd, -⟩ | ⟨e, -⟩
  · left
    obtain ⟨h1, h2, -, -⟩ := h.sizes (by omega) (h.le ho hd)
    refine ⟨_, e, h1, ?_⟩
    intro x hx
    obtain ⟨u, v, huv, rfl⟩ := h2 x hx
    have := huv.2.2.1
    omega
  · exact .inr e

/-- C39: with a minimal block size of at most 1, block size generation always returns a partition. -/
theorem C39_min_one_partial [PartialOrder R] [DecidableEq R] (mn mx : Nat) (hmn : mn ≤ 1) (detect : List R) (order : List Nat) (ho : IsSortDesc detect order) :
    ∃ sizes, getBlockSize mn mx detect order = .ok sizes ∧ sizes.sum = detect.length + 1 ∧ ∀ x ∈ sizes, 0 < x := by
  rcases C39_sum_partial mn mx detect order ho with h | h
  · exact h
  exfalso
  rcases getBlockSize_cases mn mx ho with ⟨s, d, e, -⟩ | ⟨-, s, d, rest, i, k, ⟨hI, hne, -, hr, hs⟩, -⟩
  · rw [h] at e; cases e
  · obtain ⟨j, hj⟩ := List.exists_mem_of_ne_nil _ hne
    obtain ⟨o, hoj, hlt, hnb⟩ := hr j hj
    obtain ⟨p, -, hp, hpx, hpm⟩ := setPrevLower_ok hI.sorted ((hI.mem 0).2 (.inl rfl)) (x := o + 1) (by omega)
    obtain ⟨q, -, hq, hxq, hqm⟩ := setUpper_ok hI.sorted ((hI.mem _).2 (.inr (.inl rfl))) (x := o + 1) hlt
    refine hs j hj o p q hoj ⟨⟨hp, hq, by omega, ?_⟩, hpx, hxq, by omega, by omega⟩
    intro y hy
    rcases Nat.lt_trichotomy y (o + 1) with h | h | h
    · exact .inl (hpm y hy h)
    · exact absurd (h ▸ hy) hnb
    · exact .inr (hqm y hy h)

/-- C39: if all detection values are equal (e.g. all elements have the same magnitude) and the dimension can be
split at all, block size generation returns a partition for every minimum and maximum the constructor accepts. -/
theorem C39_uniform_partial [PartialOrder R] [DecidableEq R] (mn mx : Nat) (hacc : BlockSizeGenerator.mk? mn mx = .ok (mn, mx))
    (detect : List R) (order : List Nat) (ho : IsSortDesc detect order) (v : R) (hv : ∀ x ∈ detect, x = v) (hn : 2 * mn ≤ detect.length + 1) :
    ∃ sizes, getBlockSize mn mx detect order = .ok sizes ∧ sizes.sum = detect.length + 1 ∧ ∀ x ∈ sizes, 0 < x := by
  rcases C39_sum_partial mn mx detect order ho with h | h
  · exact h
  exfalso
  have hmx : 2 * mn ≤ mx := by
    unfold BlockSizeGenerator.mk? at hacc
    split at hacc
    · cases hacc
    · omega
  have hdet : ∀ j, j < detect.length → order[j]?.bind (detect[·]?) = some v := by
    intro j hj
    obtain ⟨o, e, hlt⟩ := ho.get hj
    rw [e, Option.bind_some, List.getElem?_eq_getElem hlt, hv _ (List.getElem_mem hlt)]
  by_cases hm1 : mn ≤ 1
  · obtain ⟨_, e, -⟩ := C39_min_one_partial mn mx hm1 detect order ho
    rw [h] at e; cases e
  rcases getBlockSize_cases mn mx ho with ⟨s, d, e, -⟩ | ⟨-, s, d, rest, i, k, ⟨hI, hne, hl, hr, hs⟩, -, hik, hk, hri, hcov, hsame, hmax⟩
  · rw [h] at e; cases e
  · have hend : i + k = detect.length := by
      by_contra hc
      refine hmax (by omega) ?_
      unfold SameDetect
      rw [hdet i (by omega), hdet (i + k) (by omega)]
    -- some block is large enough
    have hblk : ∃ a b, Consec s.borders a b ∧ 2 * mn ≤ b - a := by
      obtain ⟨a, ha⟩ := List.exists_mem_of_ne_nil _ hl
      rcases hI.tight a ha with ⟨hd, h0⟩ | ⟨b, hb, hbig⟩
      · refine ⟨0, detect.length + 1, ⟨(hI.mem _).2 (.inl rfl), (hI.mem _).2 (.inr (.inl rfl)), by omega, ?_⟩, by omega⟩
        intro x hx
        have := (hI.mem x).1 hx
        rw [hd] at this
        simp only [List.not_mem_nil, false_and, exists_false, or_false] at this
        omega
      · exact ⟨a, b, hb, by omega⟩
    obtain ⟨a, b, hab, hbig⟩ := hblk
    have hbn : b ≤ detect.length + 1 := by
      rcases (hI.mem b).1 hab.2.1 with h | h | ⟨j, hj, o, hoj, h⟩
      · omega
      · omega
      · have := List.mem_of_getElem? hoj
        have := ho.1.mem_iff.1 this
        simp at this; omega
    have hx : a + mn - 1 ∈ order := by
      rw [ho.1.mem_iff]
      simp
      omega
    obtain ⟨j, hj⟩ := List.mem_iff_getElem?.1 hx
    have hjl : j < detect.length := by
      have := (List.getElem?_eq_some_iff.1 hj).1
      rwa [ho.1.length_eq, List.length_range] at this
    have hsp : Splits mn s.borders (a + mn - 1 + 1) a b := ⟨hab, by omega, by omega, by omega, by omega⟩
    rcases hcov j (by omega) with hjd | hjr
    · have : a + mn - 1 + 1 ∈ s.borders := (hI.mem _).2 (.inr (.inr ⟨j, hjd, _, hj, rfl⟩))
      have := hab.2.2.2 _ this
      omega
    · exact hs j hjr _ a b hj hsp

/-- C39, negative: a dimension of at least 2 that is smaller than twice the minimal block size makes block
size generation read uninitialised variables, whatever the matrix. -/
theorem C39_small_dimension_is_ub [PartialOrder R] [DecidableEq R] (mn mx : Nat) (detect : List R) (order : List Nat) (ho : IsSortDesc detect order)
    (h2 : 2 ≤ detect.length + 1) (hsmall : detect.length + 1 < 2 * mn) : getBlockSize mn mx detect order = .error .ub := by
  rcases getBlockSize_cases mn mx ho with ⟨s, d, e, hI, hp, hd, hst, hfin⟩ | ⟨e, -⟩
  · exfalso
    have hle := hI.le ho hd
    -- a border was placed
    have hne : d ≠ [] := by
      rintro rfl
      rcases hfin with h | h
      · exact h.2 rfl
      · exact absurd (h 0 (by omega)) (by simp)
    -- hence two blocks of at least `mn` elements
    obtain ⟨j, hj⟩ := List.exists_mem_of_ne_nil _ hne
    obtain ⟨o, hoj, hlt⟩ := ho.get (hd j hj)
    have hx : o + 1 ∈ s.borders := (hI.mem _).2 (.inr (.inr ⟨j, hj, o, hoj, rfl⟩))
    have h0 : 0 ∈ s.borders := (hI.mem 0).2 (.inl rfl)
    have hn : detect.length + 1 ∈ s.borders := (hI.mem _).2 (.inr (.inl rfl))
    obtain ⟨p, -, hp', hpx, hpm⟩ := setPrevLower_ok hI.sorted h0 (x := o + 1) (by omega)
    obtain ⟨q, -, hq, hxq, hqm⟩ := setUpper_ok hI.sorted hn (x := o + 1) (by omega)
    have c1 : Consec s.borders p (o + 1) := ⟨hp', hx, hpx, fun y hy => by
      by_cases h : y < o + 1
      · exact .inl (hpm y hy h)
      · exact .inr (by omega)⟩
    have c2 : Consec s.borders (o + 1) q := ⟨hx, hq, hxq, fun y hy => by
      by_cases h : o + 1 < y
      · exact .inr (hqm y hy h)
      · exact .inl (by omega)⟩
    have s1 := hI.small _ _ c1
    have s2 := hI.small _ _ c2
    have := hle q hq
    omega
  · exact e

/-- C39, C41: block size generation follows the greedy choice of SpecBlockSize.lean.  Either it returns the sizes of the
blocks between the cuts at which the greedy choice ends, because all blocks are small enough or no place is left; or
the greedy choice gets stuck in a state it goes through, and uninitialised variables are read. -/
theorem C39_outcomes [PartialOrder R] [DecidableEq R] (mn mx : Nat) (detect : List R) (order : List Nat) (ho : IsSortDesc detect order) :
    (∃ sizes P, getBlockSize mn mx detect order = .ok sizes ∧ Greedy detect (detect.length + 1) mn mx P ∧
      (Finished (detect.length + 1) mx P ∨ ∀ x, ¬ IsOpen (detect.length + 1) P x) ∧
      sizes.sum = detect.length + 1 ∧ (∀ x ∈ sizes, 0 < x) ∧
      ∀ x, 0 < x → x < detect.length + 1 → (x ∈ P ↔ ∃ i, i ≤ sizes.length ∧ x = offs sizes i)) ∨
    (getBlockSize mn mx detect order = .error .ub ∧ ∃ P, Greedy detect (detect.length + 1) mn mx P ∧ Stuck detect (detect.length + 1) mn mx P) := by
  rcases getBlockSize_cases mn mx ho with ⟨s, d, e, h, ⟨-, P, hG, hP⟩, hd, -, hfin⟩ | ⟨e, s, d, rest, i, k, ⟨hI, hne, hl, hr, hs⟩, ⟨-, P, hG, hP⟩, hik, hk, hri, hcov, hsame, hmax⟩
  · left
    have v := BSView.mk' ho h hP
    obtain ⟨h1, h2, h3, -⟩ := h.sizes (by omega) (h.le ho hd)
    refine ⟨_, P, e, hG, ?_, h1, ?_, fun x hx hx' => ?_⟩
    · rcases hfin with ⟨hl, hne⟩ | hall
      · left
        refine ⟨?_, fun a b hb => ?_⟩
        · obtain ⟨j, hj⟩ := List.exists_mem_of_ne_nil _ hne
          obtain ⟨o, eo, -⟩ := ho.get (hd j hj)
          exact Finset.ne_empty_of_mem ((v.done_iff j o eo).2 hj)
        · by_contra hc
          have := h.large a b ((v.block a b).1 hb) (by omega)
          rw [hl] at this; cases this
      · right
        intro x hx
        obtain ⟨j, o, hj, hnd, -⟩ := (v.place x).1 hx
        exact hnd (hall j hj)
    · intro x hx
      obtain ⟨u, w, huw, rfl⟩ := h2 x hx
      have := huw.2.2.1
      omega
    · rw [← h3]
      have := v.borders x
      unfold IsOpen at this
      tauto
  · right
    have v := BSView.mk' ho hI hP
    refine ⟨e, P, hG, v.unfinished hI hl, ?_, ?_⟩
    · obtain ⟨j, hj⟩ := List.exists_mem_of_ne_nil _ hne
      obtain ⟨o, hoj, hlt, hnb⟩ := hr j hj
      refine ⟨o + 1, (v.borders _).2 ⟨by omega, hlt, hnb⟩, fun y hy u w hu hw => ?_⟩
      obtain ⟨j', o', hj', hd', e', rfl⟩ := (v.place y).1 hy
      have hge : i ≤ j' := by
        by_contra hc
        rcases hcov j' (by omega) with h | h
        · exact hd' h
        · have := (hri j' h).1; omega
      rw [Nat.add_sub_cancel] at hu hw
      have hjr := hri j hj
      by_cases hin : j' < i + k
      · have s1 := hsame j hjr.1 hjr.2
        have s2 := hsame j' hge hin
        unfold SameDetect at s1 s2
        rw [s1, hoj, e', Option.bind_some, Option.bind_some, hu, hw] at s2
        cases s2; exact le_refl _
      · exact ho.mono (show j < j' by omega) hoj e' hu hw
    · intro x m hx hm
      by_contra hc
      obtain ⟨a, b, hsp, rfl⟩ := v.leaves x m (by omega) hm
      obtain ⟨j', o', hj', hd', e', rfl⟩ := (v.place x).1 hx.1
      have hge : i ≤ j' := by
        by_contra hc
        rcases hcov j' (by omega) with h | h
        · exact hd' h
        · have := (hri j' h).1; omega
      have hin : j' < i + k := by
        by_contra hcc
        have hlt : i + k < detect.length := by omega
        obtain ⟨j, hj⟩ := List.exists_mem_of_ne_nil _ hne
        have hjr := hri j hj
        obtain ⟨o, hoj, hlt2, hnb⟩ := hr j hj
        have val : ∀ q, q < detect.length → ∃ o x, order[q]? = some o ∧ detect[o]? = some x := by
          intro q hq
          obtain ⟨o, eo, ho'⟩ := ho.get hq
          exact ⟨o, detect[o], eo, List.getElem?_eq_getElem ho'⟩
        obtain ⟨oi, xi, ei, vi⟩ := val i (by omega)
        obtain ⟨ok, xk, ek, vk⟩ := val (i + k) hlt
        obtain ⟨oc, xc, ec, vc⟩ := val j' hj'
        rw [e'] at ec; cases ec
        -- position j has the value of position i, and x is at least as steep
        have s1 := hsame j hjr.1 hjr.2
        unfold SameDetect at s1
        rw [ei, hoj, Option.bind_some, Option.bind_some, vi] at s1
        have h1 : xi ≤ xc := hx.2 (o + 1) ((v.borders _).2 ⟨by omega, hlt2, hnb⟩) xc xi
          (by rw [Nat.add_sub_cancel]; exact vc) (by rw [Nat.add_sub_cancel]; exact s1.symm)
        have h2 : xc ≤ xk := by
          rcases Nat.lt_or_eq_of_le (not_lt.1 hcc) with h | h
          · exact ho.mono h ek e' vk vc
          · rw [h] at ek; rw [ek] at e'; cases e'
            rw [vk] at vc; cases vc; exact le_refl _
        have h3 : xk ≤ xi := ho.mono (show i < i + k by omega) ei ek vi vk
        refine hmax hlt ?_
        unfold SameDetect
        rw [ei, ek, Option.bind_some, Option.bind_some, vi, vk, le_antisymm h3 (h1.trans h2)]
      rcases hcov j' hin with h | h
      · exact hd' h
      · exact hs j' h o' a b e' hsp

/-! #### Different detection values: the greedy choice is deterministic -/

theorem IsSteepest.unique [PartialOrder R] {detect : List R} (hnd : detect.Nodup) {P : Finset Nat} {x y : Nat}
    (hx : IsSteepest detect (detect.length + 1) P x) (hy : IsSteepest detect (detect.length + 1) P y) : x = y := by
  obtain ⟨⟨x1, x2, -⟩, hx'⟩ := id hx
  obtain ⟨⟨y1, y2, -⟩, hy'⟩ := id hy
  have ex := List.getElem?_eq_getElem (l := detect) (i := x - 1) (by omega)
  have ey := List.getElem?_eq_getElem (l := detect) (i := y - 1) (by omega)
  have := (List.Nodup.getElem_inj_iff hnd).1 (le_antisymm (hy' x hx.1 _ _ ey ex) (hx' y hy.1 _ _ ex ey))
  omega

theorem Greedy.eq_of_card [PartialOrder R] {detect : List R} (hnd : detect.Nodup) {mn mx : Nat} {P Q : Finset Nat}
    (hP : Greedy detect (detect.length + 1) mn mx P) (hQ : Greedy detect (detect.length + 1) mn mx Q) (hc : P.card = Q.card) : P = Q := by
  induction hP generalizing Q with
  | start => exact (Finset.card_eq_zero.1 (by simpa using hc.symm)).symm
  | cut P x m _ _ hx _ _ _ ih =>
    rw [Finset.card_insert_of_notMem hx.1.2.2] at hc
    cases hQ with
    | start => simp at hc
    | cut Q y m' hQ _ hy _ _ _ =>
      rw [Finset.card_insert_of_notMem hy.1.2.2] at hc
      obtain rfl := ih hQ (by omega)
      rw [hx.unique hnd hy]

theorem Greedy.before [PartialOrder R] {detect : List R} {n mn mx : Nat} {Q : Finset Nat} (hQ : Greedy detect n mn mx Q) (k : Nat) (hk : k < Q.card) :
    ∃ P x m, Greedy detect n mn mx P ∧ P.card = k ∧ ¬ Finished n mx P ∧ IsSteepest detect n P x ∧ Leaves n P x m ∧ mn ≤ m := by
  induction hQ with
  | start => simp at hk
  | cut P x m hP hf hx hl hm _ ih =>
    rw [Finset.card_insert_of_notMem hx.1.2.2] at hk
    by_cases h : k < P.card
    · exact ih h
    · exact ⟨P, x, m, hP, by omega, hf, hx, hl, hm⟩

/-- C39: without two equal detection values, block size generation returns exactly if the greedy choice does not get
stuck. -/
theorem C39_returns_iff [PartialOrder R] [DecidableEq R] (mn mx : Nat) (detect : List R) (order : List Nat) (ho : IsSortDesc detect order)
    (hnd : detect.Nodup) :
    (∃ sizes, getBlockSize mn mx detect order = .ok sizes) ↔
      ¬ ∃ P, Greedy detect (detect.length + 1) mn mx P ∧ Stuck detect (detect.length + 1) mn mx P := by
  rcases C39_outcomes mn mx detect order ho with ⟨sizes, Q, e, hQ, hend, -⟩ | ⟨e, P, hP, hS⟩
  · refine ⟨fun _ => ?_, fun _ => ⟨_, e⟩⟩
    rintro ⟨P, hP, hnf, ⟨x, hx⟩, hall⟩
    rcases Nat.lt_trichotomy P.card Q.card with h | h | h
    · obtain ⟨P', y, m, hP', hc, -, hy, hl, hm⟩ := hQ.before _ h
      obtain rfl := hP.eq_of_card hnd hP' hc.symm
      have := hall y m hy hl
      omega
    · obtain rfl := hP.eq_of_card hnd hQ h
      rcases hend with h | h
      · exact hnf h
      · exact h x hx.1
    · obtain ⟨Q', y, m, hQ', hc, hnf', hy, -⟩ := hP.before _ h
      obtain rfl := hQ.eq_of_card hnd hQ' hc.symm
      rcases hend with h | h
      · exact hnf' h
      · exact h y hy.1
  · refine ⟨fun ⟨sizes, h⟩ => ?_, fun h => absurd ⟨P, hP, hS⟩ h⟩
    rw [e] at h; cases h

/-- C39: whatever ties there are, block size generation returns if no state of the greedy choice is stuck. -/
theorem C39_returns_partial [PartialOrder R] [DecidableEq R] (mn mx : Nat) (detect : List R) (order : List Nat) (ho : IsSortDesc detect order)
    (hS : ∀ P, Greedy detect (detect.length + 1) mn mx P → ¬ Stuck detect (detect.length + 1) mn mx P) :
    ∃ sizes, getBlockSize mn mx detect order = .ok sizes ∧ sizes.sum = detect.length + 1 ∧ ∀ x ∈ sizes, 0 < x := by
  rcases C39_outcomes mn mx detect order ho with ⟨sizes, Q, e, -, -, h1, h2, -⟩ | ⟨e, P, hP, h⟩
  · exact ⟨sizes, e, h1, h2⟩
  · exact absurd h (hS P hP)

/-- Both cases occur with different detection values: 9 elements with values 0 1 2 9 3 4 5 6, minimum 2, maximum 6 are cut
into 4+5; with the greatest change at the first place the same limits get stuck. -/
example : IsSortDesc [0, 1, 2, 9, 3, 4, 5, 6] [3, 7, 6, 5, 4, 2, 1, 0] ∧ [0, 1, 2, 9, 3, 4, 5, 6].Nodup ∧
    getBlockSize 2 6 [0, 1, 2, 9, 3, 4, 5, 6] [3, 7, 6, 5, 4, 2, 1, 0] = .ok [4, 5] := by
  refine ⟨⟨by decide, ?_⟩, by decide, by decide +kernel⟩
  simp

example : IsSortDesc [9, 1, 2, 0, 3, 4, 5, 6] [0, 7, 6, 5, 4, 2, 1, 3] ∧ [9, 1, 2, 0, 3, 4, 5, 6].Nodup ∧
    getBlockSize 2 6 [9, 1, 2, 0, 3, 4, 5, 6] [0, 7, 6, 5, 4, 2, 1, 3] = .error .ub := by
  refine ⟨⟨by decide, ?_⟩, by decide, by decide +kernel⟩
  simp

/-- C39, also a dimension that can be split (4 elements into 2+2) is undefined if the largest change is too close to
the end: detection values 5, 0, 0, minimum 2, maximum 4. -/
theorem C39_unlucky_border_is_ub : IsSortDesc [5, 0, 0] [0, 1, 2] ∧ BlockSizeGenerator.mk? 2 4 = .ok (2, 4) ∧
    getBlockSize 2 4 [5, 0, 0] [0, 1, 2] = .error .ub := by
  refine ⟨⟨by decide, ?_⟩, by decide, by decide⟩
  simp

/-- A larger case that does return: 19 detection values, minimum 2, maximum 5 (test/Core/BlockSizeGenerator.cpp:15-21). -/
example : getBlockSize 2 5 [0,0,0,0,15,0,0,0,0,15,0,0,0,0,0,0,0,0,0] [4,9,0,1,2,3,5,6,7,8,10,11,12,13,14,15,16,17,18] = .ok [5,5,5,5] := by
  decide +kernel

/-- C40: every block size that is returned is at least the minimum (unless there is only one block) and, if the maximum
is at least 1, at most the maximum. -/
theorem C40_limits [PartialOrder R] [DecidableEq R] (mn mx : Nat) (hmx : 1 ≤ mx) (detect : List R) (order : List Nat) (ho : IsSortDesc detect order)
    (sizes : List Nat) (e : getBlockSize mn mx detect order = .ok sizes) :
    ∀ x ∈ sizes, (mn ≤ x ∨ sizes = [detect.length + 1]) ∧ x ≤ mx := by
  rcases getBlockSize_cases mn mx ho with ⟨s, d, e', hI, hp, hd, hst, hfin⟩ | ⟨e', -⟩
  · rw [e] at e'; cases e'
    obtain ⟨h1, h2, h3, h4⟩ := hI.sizes (by omega) (hI.le ho hd)
    intro x hx
    obtain ⟨u, v, huv, rfl⟩ := h2 x hx
    constructor
    · rcases hI.small u v huv with ⟨rfl, rfl⟩ | h
      · right
        -- one block only: its size is already the sum, and all sizes are positive
        rcases hds : diffs s.borders with _ | ⟨y, l⟩
        · exact absurd hds h4
        · have hpos : ∀ z ∈ diffs s.borders, 0 < z := by
            intro z hz
            obtain ⟨a, b, hab, rfl⟩ := h2 z hz
            have := hab.2.2.1
            omega
          rw [hds] at hx h1 hpos
          rw [List.sum_cons] at h1
          have hl0 : l = [] := by
            rcases List.mem_cons.1 hx with h | h
            · rcases l with _ | ⟨z, l⟩
              · rfl
              · have := hpos z (by simp)
                rw [List.sum_cons] at h1
                omega
            · exfalso
              have hy := hpos y (by simp)
              have : detect.length + 1 - 0 ≤ l.sum := List.single_le_sum (by simp) _ h
              omega
          subst hl0
          simp at h1
          simp [h1]
      · exact .inl h
    · by_contra hbig
      have hL := hI.large u v huv (by omega)
      rcases hfin with h | h
      · rw [h.1] at hL; cases hL
      · -- every position is a border: all blocks have one element
        have hv : u + 1 ∈ s.borders := by
          have hvn := hI.le ho hd v huv.2.1
          by_cases hun : u + 1 = detect.length + 1
          · exact (hI.mem _).2 (.inr (.inl hun))
          · have hu : u ∈ order := by
              rw [ho.1.mem_iff]; simp; have := huv.2.2.1; omega
            obtain ⟨j, hj⟩ := List.mem_iff_getElem?.1 hu
            have hjl : j < detect.length := by
              have := (List.getElem?_eq_some_iff.1 hj).1
              rwa [ho.1.length_eq, List.length_range] at this
            exact (hI.mem _).2 (.inr (.inr ⟨j, h j hjl, u, hj, rfl⟩))
        have := huv.2.2.2 _ hv
        have := huv.2.2.1
        omega
  · rw [e] at e'; cases e'

/-- C40, the constructor accepts the limits (0, 0), for which the maximum cannot be respected. -/
theorem C40_max_zero_is_exceeded : BlockSizeGenerator.mk? 0 0 = .ok (0, 0) ∧ getBlockSize 0 0 [3, 7] [1, 0] = .ok [1, 1, 1] := by
  refine ⟨by decide, by decide⟩

/-- C40: the constructor rejects limits with max < 2*min by an exception and accepts all others. -/
theorem C40_constructor (mn mx : Nat) :
    ((∃ w, BlockSizeGenerator.mk? mn mx = .error (.throw w)) ↔ mx < 2 * mn) ∧
    (BlockSizeGenerator.mk? mn mx = .ok (mn, mx) ↔ 2 * mn ≤ mx) := by
  unfold BlockSizeGenerator.mk?
  split
  · rename_i h
    exact ⟨⟨fun _ => h, fun _ => ⟨_, rfl⟩⟩, ⟨fun h' => (nomatch h'), fun h' => by omega⟩⟩
  · rename_i h
    refine ⟨⟨?_, fun h' => absurd h' h⟩, ⟨fun _ => by omega, fun _ => rfl⟩⟩
    rintro ⟨w, hw⟩
    cases hw

/-- C41: the borders are those of a greedy choice by detection values: at any time the next border is at a place of the
greatest detection value among all places left, among equal values at one whose smaller part is the largest, and no
border is added once all blocks are small enough. -/
theorem C41_greedy [PartialOrder R] [DecidableEq R] (mn mx : Nat) (detect : List R) (order : List Nat) (ho : IsSortDesc detect order)
    (sizes : List Nat) (e : getBlockSize mn mx detect order = .ok sizes) :
    ∃ P, Greedy detect (detect.length + 1) mn mx P ∧ (Finished (detect.length + 1) mx P ∨ ∀ x, ¬ IsOpen (detect.length + 1) P x) ∧
      ∀ x, 0 < x → x < detect.length + 1 → (x ∈ P ↔ ∃ i, i ≤ sizes.length ∧ x = offs sizes i) := by
  rcases C39_outcomes mn mx detect order ho with ⟨sizes', Q, e', h1, h2, -, -, h3⟩ | ⟨e', -⟩
  · rw [e] at e'; cases e'
    exact ⟨Q, h1, h2, h3⟩
  · rw [e] at e'; cases e'

/-- C41: the detection value at a border that was chosen is at least the one at every position that was not.  Position
`p` (between elements `p` and `p+1`) is a border if some block starts at `p+1`. -/
theorem C41_steepest_partial [PartialOrder R] [DecidableEq R] (mn mx : Nat) (detect : List R) (order : List Nat) (ho : IsSortDesc detect order)
    (sizes : List Nat) (e : getBlockSize mn mx detect order = .ok sizes) (p q : Nat) (hp : p < detect.length) (hq : q < detect.length)
    (hpb : ∃ i, i ≤ sizes.length ∧ offs sizes i = p + 1) (hqb : ¬ ∃ i, i ≤ sizes.length ∧ offs sizes i = q + 1) :
    detect[q] ≤ detect[p] := by
  rcases getBlockSize_cases mn mx ho with ⟨s, d, e', hI, hpr, hd, hst, hfin⟩ | ⟨e', -⟩
  · rw [e] at e'; cases e'
    obtain ⟨h1, h2, h3, h4⟩ := hI.sizes (by omega) (hI.le ho hd)
    have pos : ∀ x, x < detect.length → ∃ j, order[j]? = some x ∧ j < detect.length := by
      intro x hx
      have hu : x ∈ order := by rw [ho.1.mem_iff]; simpa using hx
      obtain ⟨j, hj⟩ := List.mem_iff_getElem?.1 hu
      refine ⟨j, hj, ?_⟩
      have := (List.getElem?_eq_some_iff.1 hj).1
      rwa [ho.1.length_eq, List.length_range] at this
    have border : ∀ x j, x < detect.length → order[j]? = some x → (j ∈ d ↔ x + 1 ∈ s.borders) := by
      intro x j hx hj
      rw [hI.mem]
      constructor
      · exact fun h => .inr (.inr ⟨j, h, x, hj, rfl⟩)
      · rintro (h | h | ⟨j', hj', o, ho', h⟩)
        · omega
        · omega
        · obtain rfl : x = o := by omega
          rwa [ho.inj _ _ _ hj ho']
    obtain ⟨jp, ep, lp⟩ := pos p hp
    obtain ⟨jq, eq, lq⟩ := pos q hq
    have hpB : p + 1 ∈ s.borders := (h3 _).2 (by obtain ⟨i, hi, h⟩ := hpb; exact ⟨i, hi, h.symm⟩)
    have hqB : q + 1 ∉ s.borders := fun h => hqb (by obtain ⟨i, hi, h⟩ := (h3 _).1 h; exact ⟨i, hi, h.symm⟩)
    exact hst jp jq ((border p jp hp ep).2 hpB) lq (fun h => hqB ((border q jq hq eq).1 h)) p q _ _ ep eq
      (List.getElem?_eq_getElem hp) (List.getElem?_eq_getElem hq)
  · rw [e] at e'; cases e'

/-- C41: for a row-major matrix the detection arrays are the sums of the magnitude differences of neighbouring rows and
columns (`ex v` is the binary exponent of `v`). -/
theorem C41_row_major_partial [AddCommGroup R] [Lattice R] (ex : R → R) (A : Dense R) (r c : Nat) (f : Nat → Nat → R)
    (hA : A.Is r c f) (ho : A.ori = .row) (hr : 0 < r) (hc : 0 < c) :
    detectionArrays ex A = .ok ((List.range (r - 1)).map (fun i => ∑ j ∈ Finset.range c, |ex (f i j) - ex (f (i + 1) j)|),
      (List.range (c - 1)).map (fun j => ∑ i ∈ Finset.range r, |ex (f i j) - ex (f i (j + 1))|)) := by
  have hg : ∀ p, p < A.dim.rows * A.dim.cols → A.data.read p = .ok (f (p / c) (p % c)) := by
    intro p hp
    rw [hA.rows, hA.cols] at hp
    have h1 : p / c < r := Nat.div_lt_of_lt_mul (by rwa [Nat.mul_comm] at hp)
    have h2 : p % c < c := Nat.mod_lt _ hc
    have := hA.read h1 h2
    rw [ho] at this
    have e : (View.plain .row r c).pos (p / c) (p % c) = p := by
      simp only [View.plain, View.pos]
      exact Nat.div_add_mod' p c
    rwa [e] at this
  rw [detectionArrays_sat (by rw [hA.rows]; exact hr) (by rw [hA.cols]; exact hc) hg, hA.rows, hA.cols]
  have hd : ∀ i j, j < c → (i * c + j) / c = i ∧ (i * c + j) % c = j := by
    intro i j hj
    rw [Nat.add_comm, Nat.add_mul_div_right _ _ hc, Nat.div_eq_of_lt hj, Nat.add_mul_mod_self_right, Nat.mod_eq_of_lt hj]
    omega
  refine congrArg Except.ok (Prod.ext ?_ ?_)
  · apply List.map_congr_left
    intro i _
    refine Finset.sum_congr rfl fun j hj => ?_
    have hj := Finset.mem_range.1 hj
    rw [(hd i j hj).1, (hd i j hj).2, (hd (i + 1) j hj).1, (hd (i + 1) j hj).2]
  · apply List.map_congr_left
    intro j hj
    have hj : j < c - 1 := by simpa using hj
    refine Finset.sum_congr rfl fun i _ => ?_
    rw [(hd i j (by omega)).1, (hd i j (by omega)).2, (hd i (j + 1) (by omega)).1, (hd i (j + 1) (by omega)).2]

/-- C41, false for column-major matrices (the default orientation): for every square matrix the two arrays are
exchanged, i.e. row borders are derived from column differences and vice versa. -/
theorem C41_column_major_is_swapped [AddCommGroup R] [Lattice R] (ex : R → R) (A : Dense R) (n : Nat) (f : Nat → Nat → R)
    (hA : A.Is n n f) (ho : A.ori = .col) (hn : 0 < n) :
    detectionArrays ex A = .ok ((List.range (n - 1)).map (fun j => ∑ i ∈ Finset.range n, |ex (f i j) - ex (f i (j + 1))|),
      (List.range (n - 1)).map (fun i => ∑ j ∈ Finset.range n, |ex (f i j) - ex (f (i + 1) j)|)) := by
  have hg : ∀ p, p < A.dim.rows * A.dim.cols → A.data.read p = .ok (f (p % n) (p / n)) := by
    intro p hp
    rw [hA.rows, hA.cols] at hp
    have h1 : p / n < n := Nat.div_lt_of_lt_mul hp
    have h2 : p % n < n := Nat.mod_lt _ hn
    have := hA.read h2 h1
    rw [ho] at this
    have e : (View.plain .col n n).pos (p % n) (p / n) = p := by
      simp only [View.plain, View.pos]
      rw [Nat.add_comm]; exact Nat.div_add_mod' p n
    rwa [e] at this
  rw [detectionArrays_sat (by rw [hA.rows]; exact hn) (by rw [hA.cols]; exact hn) hg, hA.rows, hA.cols]
  have hd : ∀ i j, j < n → (i * n + j) / n = i ∧ (i * n + j) % n = j := by
    intro i j hj
    rw [Nat.add_comm, Nat.add_mul_div_right _ _ hn, Nat.div_eq_of_lt hj, Nat.add_mul_mod_self_right, Nat.mod_eq_of_lt hj]
    omega
  refine congrArg Except.ok (Prod.ext ?_ ?_)
  · apply List.map_congr_left
    intro i _
    refine Finset.sum_congr rfl fun j hj => ?_
    have hj := Finset.mem_range.1 hj
    rw [(hd i j hj).1, (hd i j hj).2, (hd (i + 1) j hj).1, (hd (i + 1) j hj).2]
  · apply List.map_congr_left
    intro j hj
    have hj : j < n - 1 := by simpa using hj
    refine Finset.sum_congr rfl fun i _ => ?_
    rw [(hd i j (by omega)).1, (hd i j (by omega)).2, (hd i (j + 1) (by omega)).1, (hd i (j + 1) (by omega)).2]

/-- C41, a column-major 2×3 matrix with rows (1,1,1) and (9,9,9), i.e. without any difference between columns: column
differences are reported all the same (the same matrix in row-major storage is handled correctly). -/
theorem C41_column_major_is_wrong :
    detectionArrays id (Dense.ofFn .col 2 3 (fun i _ => if i = 0 then (1 : Int) else 9)) = .ok ([24], [16, 16]) ∧
    detectionArrays id (Dense.ofFn .row 2 3 (fun i _ => if i = 0 then (1 : Int) else 9)) = .ok ([24], [0, 0]) := by
  constructor <;> decide +kernel

/-! ### The generator on matrices, and the whole pipeline -/

/-- A sort that satisfies `IsSortDesc`: the hypotheses on `sort` below can be met. -/
def sortIdx [LinearOrder R] [Zero R] (l : List R) : List Nat :=
  (List.range l.length).insertionSort (fun a b => l.getD b 0 ≤ l.getD a 0)

theorem sortIdx_spec [LinearOrder R] [Zero R] (l : List R) : IsSortDesc l (sortIdx l) := by
  have : Std.Total (fun a b : Nat => l.getD b 0 ≤ l.getD a 0) := ⟨fun a b => le_total _ _⟩
  have : IsTrans Nat (fun a b : Nat => l.getD b 0 ≤ l.getD a 0) := ⟨fun a b c h1 h2 => h2.trans h1⟩
  refine ⟨List.perm_insertionSort _ _, (List.pairwise_insertionSort _ _).imp ?_⟩
  intro a b h x y hx hy
  simp only [List.getD_eq_getElem?_getD, hx, hy, Option.getD_some] at h
  exact h

theorem detection_lengths [AddCommGroup R] [Lattice R] (ex : R → R) (A : Dense R) (r c : Nat) (f : Nat → Nat → R)
    (hA : A.Is r c f) (hr : 0 < r) (hc : 0 < c) :
    ∃ rd cd, detectionArrays ex A = .ok (rd, cd) ∧ rd.length = r - 1 ∧ cd.length = c - 1 := by
  refine ⟨_, _, detectionArrays_sat (by rw [hA.rows]; exact hr) (by rw [hA.cols]; exact hc)
    (fun p hp => hA.raw (by rw [hA.rows, hA.cols] at hp; exact hp)), ?_, ?_⟩
  · simp [hA.rows]
  · simp [hA.cols]

theorem transformInto_ok (plus : R → R → R) (u v : List R) (h : u.length ≤ v.length) :
    ∃ w, transformInto plus u v = .ok w ∧ w.length = u.length := by
  induction u generalizing v with
  | nil => exact ⟨[], by simp [transformInto], rfl⟩
  | cons a u ih =>
    rcases v with _ | ⟨b, v⟩
    · simp at h
    · obtain ⟨w, e, hw⟩ := ih v (by simpa using h)
      exact ⟨plus a b :: w, by simp [transformInto, e], by simp [hw]⟩

/-- C39 on matrices: with a minimal block size of at most 1, the block sizes of every non-empty matrix, of either
orientation, partition its rows and its columns. -/
theorem C39_matrix_partial [AddCommGroup R] [LinearOrder R] (ex : R → R) (sort : List R → List Nat)
    (hsort : ∀ l, IsSortDesc l (sort l)) (mn mx : Nat) (hmn : mn ≤ 1) (A : Dense R) (r c : Nat) (f : Nat → Nat → R)
    (hA : A.Is r c f) (hr : 0 < r) (hc : 0 < c) :
    ∃ rs cs, blockSizes ex sort mn mx A = .ok (rs, cs) ∧ rs.sum = r ∧ cs.sum = c ∧ (∀ x ∈ rs, 0 < x) ∧ (∀ x ∈ cs, 0 < x) := by
  unfold blockSizes
  by_cases h : A.dim.rows ≤ mx ∧ A.dim.cols ≤ mx
  · rw [if_pos h]
    exact ⟨_, _, rfl, by simp [hA.rows], by simp [hA.cols], by simpa [hA.rows] using hr, by simpa [hA.cols] using hc⟩
  · rw [if_neg h]
    obtain ⟨rd, cd, e, l1, l2⟩ := detection_lengths ex A r c f hA hr hc
    obtain ⟨rs, e1, s1, p1⟩ := C39_min_one_partial mn mx hmn rd (sort rd) (hsort rd)
    obtain ⟨cs, e2, s2, p2⟩ := C39_min_one_partial mn mx hmn cd (sort cd) (hsort cd)
    refine ⟨rs, cs, ?_, by omega, by omega, p1, p2⟩
    rw [e, bind_ok']
    simp only [e1, e2, bind_ok', pure_ok']

/-- C39 for products: with a minimal block size of at most 1, every pair of non-empty matrices with matching inner
dimension gets partitions of the rows of A, of the inner dimension and of the columns of B. -/
theorem C39_product_partial [AddCommGroup R] [LinearOrder R] (ex : R → R) (plus : R → R → R) (sort : List R → List Nat)
    (hsort : ∀ l, IsSortDesc l (sort l)) (mn mx : Nat) (hmn : mn ≤ 1) (A B : Dense R) (m k n : Nat) (f g : Nat → Nat → R)
    (hA : A.Is m k f) (hB : B.Is k n g) (hm : 0 < m) (hk : 0 < k) (hn : 0 < n) :
    ∃ rs ks cs, blockSizesMult ex plus sort mn mx A B = .ok (rs, ks, cs) ∧ rs.sum = m ∧ ks.sum = k ∧ cs.sum = n ∧
      (∀ x ∈ rs, 0 < x) ∧ (∀ x ∈ ks, 0 < x) ∧ (∀ x ∈ cs, 0 < x) := by
  obtain ⟨rdA, cdA, eA, l1, l2⟩ := detection_lengths ex A m k f hA hm hk
  obtain ⟨rdB, cdB, eB, l3, l4⟩ := detection_lengths ex B k n g hB hk hn
  obtain ⟨w, ew, lw⟩ := transformInto_ok plus cdA rdB (by omega)
  obtain ⟨rs, e1, s1, p1⟩ := C39_min_one_partial mn mx hmn rdA (sort rdA) (hsort rdA)
  obtain ⟨ks, e2, s2, p2⟩ := C39_min_one_partial mn mx hmn w (sort w) (hsort w)
  obtain ⟨cs, e3, s3, p3⟩ := C39_min_one_partial mn mx hmn cdB (sort cdB) (hsort cdB)
  refine ⟨rs, ks, cs, ?_, by omega, by omega, by omega, p1, p2, p3⟩
  simp only [blockSizesMult, eA, eB, ew, e1, e2, e3, bind_ok', pure_ok']

/-- C28: the whole pipeline, with block sizes computed from the matrices: for every pair of non-empty column-major
matrices with matching inner dimension (within the range of the machine types), every minimal block size of
at most 1, every maximum of at least twice the minimum and every threshold setting with the default policy,
it succeeds and returns the product Ã*B̃ of the matrices with elements kept, rounded or dropped. -/
theorem C28_whole_pipeline_partial [Field R] [LinearOrder R] [IsStrictOrderedRing R] (b : Build) (rnd ex : R → R) (plus : R → R → R)
    (sort : List R → List Nat) (hsort : ∀ l, IsSortDesc l (sort l)) (hrnd : rnd 0 = 0) (t : Settings R) (mn mx : Nat) (hmn : mn ≤ 1)
    (hmx : 2 * mn ≤ mx) (A B : Dense R) (m k n : Nat) (f g : Nat → Nat → R)
    (hA : A.Is m k f) (hB : B.Is k n g) (hoA : A.ori = .col) (hoB : B.ori = .col) (hm : 0 < m) (hk : 0 < k) (hn : 0 < n)
    (hm64 : m + 1 < 2 ^ 64) (hk31 : k < 2 ^ 31) (hn31 : n < 2 ^ 31)
    (hD : 0 ≤ t.sigDouble) (hDF : t.sigDouble < t.sigSingle) (h1 : 1 ≤ t.denseDDouble) (h2 : 1 ≤ t.denseDSingle)
    (hz : t.zeroDouble ≤ 0) (hsf : t.sparseFSingle ≤ 0) (hdf : t.denseFSingle ≤ 0) :
    ∃ D, ∃ f' g' : Nat → Nat → R, blockPipeline b rnd ex plus sort t mn mx A B = .ok D ∧
      (∀ i l, i < m → l < k → Kept rnd t (f i l) (f' i l)) ∧
      (∀ l j, l < k → j < n → Kept rnd t (g l j) (g' l j)) ∧
      D.Is m n (fun i j => ∑ l ∈ Finset.range k, f' i l * g' l j) := by
  obtain ⟨rs, ks, cs, e, rfl, rfl, rfl, p1, p2, p3⟩ := C39_product_partial ex plus sort hsort mn mx hmn A B m k n f g hA hB hm hk hn
  have le : ∀ (l : List Nat) x, x ∈ l → x ≤ l.sum := fun l x hx => List.single_le_sum (by simp) _ hx
  have hpA : Partition rs ks := ⟨p1, p2, hm64, fun x hx => lt_of_le_of_lt (le _ _ hx) hk31⟩
  have hpB : Partition ks cs := ⟨p2, p3, by omega, fun x hx => lt_of_le_of_lt (le _ _ hx) hn31⟩
  obtain ⟨BA, BB, BC, D, f', g', eA, eB, eC, eD, kA, kB, hDI⟩ :=
    C28_pipeline_partial b rnd hrnd t A B rs ks cs f g hA hB hoA hoB hpA hpB (by rintro rfl; simp at hk) hD hDF h1 h2 hz hsf hdf
  refine ⟨D, f', g', ?_, kA, kB, hDI⟩
  have em : BlockSizeGenerator.mk? mn mx = .ok (mn, mx) := by simp [BlockSizeGenerator.mk?]; omega
  simp only [blockPipeline, em, e, eA, eB, eC, eD, bind_ok']

/-- C39: block sizes for a product, all limits.  Either three partitions are returned, or one of the three arrays of
detection values gets the greedy choice stuck. -/
theorem C39_product_outcomes [AddCommGroup R] [LinearOrder R] (ex : R → R) (plus : R → R → R) (sort : List R → List Nat)
    (hsort : ∀ l, IsSortDesc l (sort l)) (mn mx : Nat) (A B : Dense R) (m k n : Nat) (f g : Nat → Nat → R)
    (hA : A.Is m k f) (hB : B.Is k n g) (hm : 0 < m) (hk : 0 < k) (hn : 0 < n) :
    (∃ rs ks cs, blockSizesMult ex plus sort mn mx A B = .ok (rs, ks, cs) ∧ rs.sum = m ∧ ks.sum = k ∧ cs.sum = n ∧
      (∀ x ∈ rs, 0 < x) ∧ (∀ x ∈ ks, 0 < x) ∧ (∀ x ∈ cs, 0 < x)) ∨
    (blockSizesMult ex plus sort mn mx A B = .error .ub ∧ ∃ rdA cdA rdB cdB w, detectionArrays ex A = .ok (rdA, cdA) ∧
      detectionArrays ex B = .ok (rdB, cdB) ∧ w = List.zipWith plus cdA rdB ∧
      ∃ d ∈ [rdA, w, cdB], ∃ P, Greedy d (d.length + 1) mn mx P ∧ Stuck d (d.length + 1) mn mx P) := by
  obtain ⟨rdA, cdA, eA, l1, l2⟩ := detection_lengths ex A m k f hA hm hk
  obtain ⟨rdB, cdB, eB, l3, l4⟩ := detection_lengths ex B k n g hB hk hn
  have ew : transformInto plus cdA rdB = .ok (List.zipWith plus cdA rdB) := by
    have hl : cdA.length = rdB.length := by omega
    clear eA eB l1 l2 l3 l4
    induction cdA generalizing rdB with
    | nil => rfl
    | cons a u ih =>
      rcases rdB with _ | ⟨b, v⟩
      · simp at hl
      · simp only [transformInto, ih v (by simpa using hl), bind_ok', List.zipWith_cons_cons, pure_ok']
  have lw : (List.zipWith plus cdA rdB).length = k - 1 := by simp; omega
  rcases C39_outcomes mn mx rdA (sort rdA) (hsort rdA) with ⟨rs, -, e1, -, -, s1, p1, -⟩ | ⟨e1, P, hP⟩
  · rcases C39_outcomes mn mx _ _ (hsort (List.zipWith plus cdA rdB)) with ⟨ks, -, e2, -, -, s2, p2, -⟩ | ⟨e2, P, hP⟩
    · rcases C39_outcomes mn mx cdB (sort cdB) (hsort cdB) with ⟨cs, -, e3, -, -, s3, p3, -⟩ | ⟨e3, P, hP⟩
      · left
        refine ⟨rs, ks, cs, ?_, by omega, by omega, by omega, p1, p2, p3⟩
        simp only [blockSizesMult, eA, eB, ew, e1, e2, e3, bind_ok', pure_ok']
      · right
        refine ⟨?_, _, _, _, _, _, eA, eB, rfl, cdB, by simp, P, hP⟩
        simp only [blockSizesMult, eA, eB, ew, e1, e2, e3, bind_ok', bind_error']
    · right
      refine ⟨?_, _, _, _, _, _, eA, eB, rfl, _, by simp, P, hP⟩
      simp only [blockSizesMult, eA, eB, ew, e1, e2, bind_ok', bind_error']
  · right
    refine ⟨?_, _, _, _, _, _, eA, eB, rfl, rdA, by simp, P, hP⟩
    simp only [blockSizesMult, eA, eB, ew, e1, bind_ok', bind_error']

/-- C28: the whole pipeline for all block size limits: whenever it returns, it returns the product of the matrices with
elements kept, rounded or dropped; and the only failure is that of the block size generator. -/
theorem C28_any_limits_partial [Field R] [LinearOrder R] [IsStrictOrderedRing R] (b : Build) (rnd ex : R → R) (plus : R → R → R)
    (sort : List R → List Nat) (hsort : ∀ l, IsSortDesc l (sort l)) (hrnd : rnd 0 = 0) (t : Settings R) (mn mx : Nat)
    (hmx : 2 * mn ≤ mx) (A B : Dense R) (m k n : Nat) (f g : Nat → Nat → R)
    (hA : A.Is m k f) (hB : B.Is k n g) (hoA : A.ori = .col) (hoB : B.ori = .col) (hm : 0 < m) (hk : 0 < k) (hn : 0 < n)
    (hm64 : m + 1 < 2 ^ 64) (hk31 : k < 2 ^ 31) (hn31 : n < 2 ^ 31)
    (hD : 0 ≤ t.sigDouble) (hDF : t.sigDouble < t.sigSingle) (h1 : 1 ≤ t.denseDDouble) (h2 : 1 ≤ t.denseDSingle)
    (hz : t.zeroDouble ≤ 0) (hsf : t.sparseFSingle ≤ 0) (hdf : t.denseFSingle ≤ 0) :
    (∃ D, ∃ f' g' : Nat → Nat → R, blockPipeline b rnd ex plus sort t mn mx A B = .ok D ∧
      (∀ i l, i < m → l < k → Kept rnd t (f i l) (f' i l)) ∧
      (∀ l j, l < k → j < n → Kept rnd t (g l j) (g' l j)) ∧
      D.Is m n (fun i j => ∑ l ∈ Finset.range k, f' i l * g' l j)) ∨
    (blockPipeline b rnd ex plus sort t mn mx A B = .error .ub ∧ ∃ rdA cdA rdB cdB, detectionArrays ex A = .ok (rdA, cdA) ∧
      detectionArrays ex B = .ok (rdB, cdB) ∧
      ∃ d ∈ [rdA, List.zipWith plus cdA rdB, cdB], ∃ P, Greedy d (d.length + 1) mn mx P ∧ Stuck d (d.length + 1) mn mx P) := by
  have em : BlockSizeGenerator.mk? mn mx = .ok (mn, mx) := by simp [BlockSizeGenerator.mk?]; omega
  rcases C39_product_outcomes ex plus sort hsort mn mx A B m k n f g hA hB hm hk hn with
    ⟨rs, ks, cs, e, rfl, rfl, rfl, p1, p2, p3⟩ | ⟨e, rdA, cdA, rdB, cdB, w, eA, eB, rfl, hs⟩
  · left
    have le : ∀ (l : List Nat) x, x ∈ l → x ≤ l.sum := fun l x hx => List.single_le_sum (by simp) _ hx
    have hpA : Partition rs ks := ⟨p1, p2, hm64, fun x hx => lt_of_le_of_lt (le _ _ hx) hk31⟩
    have hpB : Partition ks cs := ⟨p2, p3, by omega, fun x hx => lt_of_le_of_lt (le _ _ hx) hn31⟩
    obtain ⟨BA, BB, BC, D, f', g', eA, eB, eC, eD, kA, kB, hDI⟩ :=
      C28_pipeline_partial b rnd hrnd t A B rs ks cs f g hA hB hoA hoB hpA hpB (by rintro rfl; simp at hk) hD hDF h1 h2 hz hsf hdf
    refine ⟨D, f', g', ?_, kA, kB, hDI⟩
    simp only [blockPipeline, em, e, eA, eB, eC, eD, bind_ok']
  · right
    refine ⟨?_, rdA, cdA, rdB, cdB, eA, eB, hs⟩
    simp only [blockPipeline, em, e, bind_ok', bind_error']

/-- C28, exact case of the whole pipeline: significance thresholds 0 and default occupation thresholds give A*B. -/
theorem C28_whole_pipeline_exact_partial [Field R] [LinearOrder R] [IsStrictOrderedRing R] (b : Build) (rnd ex : R → R) (plus : R → R → R)
    (sort : List R → List Nat) (hsort : ∀ l, IsSortDesc l (sort l)) (mn mx : Nat) (hmn : mn ≤ 1)
    (hmx : 2 * mn ≤ mx) (A B : Dense R) (m k n : Nat) (f g : Nat → Nat → R)
    (hA : A.Is m k f) (hB : B.Is k n g) (hoA : A.ori = .col) (hoB : B.ori = .col) (hm : 0 < m) (hk : 0 < k) (hn : 0 < n)
    (hm64 : m + 1 < 2 ^ 64) (hk31 : k < 2 ^ 31) (hn31 : n < 2 ^ 31) :
    ∃ D, blockPipeline b rnd ex plus sort (Settings.default 0 0) mn mx A B = .ok D ∧
      D.Is m n (fun i j => ∑ l ∈ Finset.range k, f i l * g l j) := by
  obtain ⟨rs, ks, cs, e, rfl, rfl, rfl, p1, p2, p3⟩ := C39_product_partial ex plus sort hsort mn mx hmn A B m k n f g hA hB hm hk hn
  have le : ∀ (l : List Nat) x, x ∈ l → x ≤ l.sum := fun l x hx => List.single_le_sum (by simp) _ hx
  have hpA : Partition rs ks := ⟨p1, p2, hm64, fun x hx => lt_of_le_of_lt (le _ _ hx) hk31⟩
  have hpB : Partition ks cs := ⟨p2, p3, by omega, fun x hx => lt_of_le_of_lt (le _ _ hx) hn31⟩
  obtain ⟨BA, BB, BC, D, eA, eB, eC, eD, hDI⟩ :=
    C28_zero_thresholds_partial b rnd A B rs ks cs f g hA hB hoA hoB hpA hpB (by rintro rfl; simp at hk)
  refine ⟨D, ?_, hDI⟩
  have em : BlockSizeGenerator.mk? mn mx = .ok (mn, mx) := by simp [BlockSizeGenerator.mk?]; omega
  simp only [blockPipeline, em, e, eA, eB, eC, eD, bind_ok']

/-- C28, negative: with the default limits (Threshold.h:32-33: minimum 200, maximum 1000) the pipeline is undefined for
*every* pair of matrices if A has at least 2 and fewer than 400 rows. -/
theorem C28_default_limits_are_ub [Field R] [LinearOrder R] (b : Build) (rnd ex : R → R) (plus : R → R → R)
    (sort : List R → List Nat) (hsort : ∀ l, IsSortDesc l (sort l)) (t : Settings R)
    (A B : Dense R) (m k n : Nat) (f g : Nat → Nat → R) (hA : A.Is m k f) (hB : B.Is k n g) (hm : 2 ≤ m) (hm4 : m < 400)
    (hk : 0 < k) (hn : 0 < n) : blockPipeline b rnd ex plus sort t 200 1000 A B = .error .ub := by
  obtain ⟨rdA, cdA, eA, l1, l2⟩ := detection_lengths ex A m k f hA (by omega) hk
  obtain ⟨rdB, cdB, eB, l3, l4⟩ := detection_lengths ex B k n g hB hk hn
  obtain ⟨w, ew, lw⟩ := transformInto_ok plus cdA rdB (by omega)
  have e := C39_small_dimension_is_ub 200 1000 rdA (sort rdA) (hsort rdA) (by omega) (by omega)
  have em : BlockSizeGenerator.mk? 200 1000 = .ok (200, 1000) := by decide
  simp only [blockPipeline, em, blockSizesMult, eA, eB, ew, e, bind_ok', bind_error']

/-- The whole pipeline on concrete 3×2 and 2×2 matrices with maximal block size 2: it returns the product. -/
example : (do
    let D ← blockPipeline .debug id id (· + ·) sortIdx (Settings.default (0 : ℚ) 0) 1 2
      (Dense.ofFn .col 3 2 (fun i j => ((i * 5 + j : Nat) : ℚ))) (Dense.ofFn .col 2 2 (fun i j => ((i + 2 * j : Nat) : ℚ)))
    let a ← D.get 2 1
    return (D.dim.rows, D.dim.cols, a)) = .ok (3, 2, 10 * 2 + 11 * 3) := by
  decide +kernel

end BB
