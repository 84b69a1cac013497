import Verif.SpecNormFp
import Verif.Lemmas.Norm
import Verif.Lemmas.Typed
import Verif.Lemmas.Sparse
import Verif.Props.Norm
import Verif.Props.Compare
import Mathlib.Tactic.Linarith
import Mathlib.Tactic.Positivity

/-! Auxiliary lemmas about norms in rounding arithmetic. -/

namespace BB

variable {F D : Type}

namespace RelErr

variable {u x y t s : ℝ} {N M : Nat}

theorem mono (h0 : 0 ≤ u) (h1 : u < 1) (ht : 0 ≤ t) (h : N ≤ M) (hx : RelErr u N x t) : RelErr u M x t := by
  refine ⟨le_trans (mul_le_mul_of_nonneg_right ?_ ht) hx.1, le_trans hx.2 (mul_le_mul_of_nonneg_right ?_ ht)⟩
  · exact pow_le_pow_of_le_one (by linarith) (by linarith) h
  · exact pow_le_pow_right₀ (by linarith) h

theorem nonneg (h1 : u < 1) (ht : 0 ≤ t) (hx : RelErr u N x t) : 0 ≤ x :=
  le_trans (mul_nonneg (pow_nonneg (by linarith) _) ht) hx.1

theorem zero : RelErr u N 0 0 := ⟨by simp, by simp⟩

theorem refl : RelErr u 0 x x := ⟨by simp, by simp⟩

theorem add (hx : RelErr u N x t) (hy : RelErr u N y s) : RelErr u N (x + y) (t + s) :=
  ⟨by rw [mul_add]; exact add_le_add hx.1 hy.1, by rw [mul_add]; exact add_le_add hx.2 hy.2⟩

/-- One more rounding. -/
theorem round {z : ℝ} (h0 : 0 ≤ u) (h1 : u < 1) (ht : 0 ≤ t) (hx : RelErr u N x t) (hz : |z - x| ≤ u * |x|) : RelErr u (N + 1) z t := by
  have hx0 := hx.nonneg h1 ht
  rw [abs_of_nonneg hx0, abs_le] at hz
  refine ⟨?_, ?_⟩
  · calc (1 - u) ^ (N + 1) * t = (1 - u) * ((1 - u) ^ N * t) := by ring
      _ ≤ (1 - u) * x := mul_le_mul_of_nonneg_left hx.1 (by linarith)
      _ ≤ z := by linarith [hz.1]
  · calc z ≤ (1 + u) * x := by linarith [hz.2]
      _ ≤ (1 + u) * ((1 + u) ^ N * t) := mul_le_mul_of_nonneg_left hx.2 (by linarith)
      _ = _ := by ring

/-- The square of an approximation. -/
theorem sq (h1 : u < 1) (ht : 0 ≤ t) (hx : RelErr u N x t) : RelErr u (N + N) (x ^ 2) (t ^ 2) := by
  have hx0 := hx.nonneg h1 ht
  refine ⟨?_, ?_⟩
  · calc (1 - u) ^ (N + N) * t ^ 2 = ((1 - u) ^ N * t) ^ 2 := by ring
      _ ≤ x ^ 2 := pow_le_pow_left₀ (mul_nonneg (pow_nonneg (by linarith) _) ht) hx.1 2
  · calc x ^ 2 ≤ ((1 + u) ^ N * t) ^ 2 := pow_le_pow_left₀ hx0 hx.2 2
      _ = _ := by ring

/-- The square of a rounded square root. -/
theorem sqrt {z : ℝ} (_h0 : 0 ≤ u) (h1 : u < 1) (ht : 0 ≤ t) (hx : RelErr u N x t) (hz : |z - √x| ≤ u * √x) :
    0 ≤ z ∧ RelErr u (N + 2) (z ^ 2) t := by
  have hx0 := hx.nonneg h1 ht
  have hs := Real.sqrt_nonneg x
  rw [abs_le] at hz
  have hz0 : 0 ≤ z := by nlinarith [hz.1]
  have a1 : (1 - u) * √x ≤ z := by linarith [hz.1]
  have a2 : z ≤ (1 + u) * √x := by linarith [hz.2]
  have b1 : (1 - u) ^ 2 * x ≤ z ^ 2 := by
    have := pow_le_pow_left₀ (mul_nonneg (by linarith) hs) a1 2
    rwa [mul_pow, Real.sq_sqrt hx0] at this
  have b2 : z ^ 2 ≤ (1 + u) ^ 2 * x := by
    have := pow_le_pow_left₀ hz0 a2 2
    rwa [mul_pow, Real.sq_sqrt hx0] at this
  refine ⟨hz0, ?_, ?_⟩
  · calc (1 - u) ^ (N + 2) * t = (1 - u) ^ 2 * ((1 - u) ^ N * t) := by ring
      _ ≤ (1 - u) ^ 2 * x := mul_le_mul_of_nonneg_left hx.1 (sq_nonneg _)
      _ ≤ _ := b1
  · calc z ^ 2 ≤ (1 + u) ^ 2 * x := b2
      _ ≤ (1 + u) ^ 2 * ((1 + u) ^ N * t) := mul_le_mul_of_nonneg_left hx.2 (sq_nonneg _)
      _ = _ := by ring

/-- A relative error in a number is one in its absolute value. -/
theorem ofAbs {a b : ℝ} (h : |a - b| ≤ u * |b|) : RelErr u 1 |a| |b| := by
  have h1 := abs_sub_abs_le_abs_sub a b
  have h2 := abs_sub_abs_le_abs_sub b a
  rw [abs_sub_comm b a] at h2
  exact ⟨by linarith, by linarith⟩

end RelErr

/-- Summation. -/
theorem fold_sum [Zero D] [Add D] {X : Type} {o : FOps D} {val : D → ℝ} {u : ℝ} (H : NormRounding o val u) (g : X → D) (G : X → ℝ) (M : Nat) (l : List X)
    (hG : ∀ x ∈ l, 0 ≤ G x ∧ RelErr u M (val (g x)) (G x)) (s : D) (T : ℝ) (K : Nat) (hK : M ≤ K) (hT : 0 ≤ T)
    (hs : RelErr u K (val s) T) :
    RelErr u (K + l.length) (val (l.foldl (fun s x => s + g x) s)) (T + (l.map G).sum) := by
  induction l generalizing s T K with
  | nil => simpa using hs
  | cons x l ih =>
    obtain ⟨g0, g1⟩ := hG x (by simp)
    have h1 := (hs.add (g1.mono H.nonneg H.lt_one g0 hK)).round H.nonneg H.lt_one (add_nonneg hT g0) (H.add s (g x))
    have := ih (fun y hy => hG y (by simp [hy])) _ _ (K + 1) (by omega) (add_nonneg hT g0) h1
    rw [List.foldl_cons, List.map_cons, List.sum_cons, List.length_cons]
    rw [show K + (l.length + 1) = K + 1 + l.length by omega, show T + (G x + (l.map G).sum) = T + G x + (l.map G).sum by ring]
    exact this

theorem foldl_max_val [Zero D] [Add D] {X : Type} {o : FOps D} {val : D → ℝ} {u : ℝ} (H : NormRounding o val u) (g : X → D)
    (l : List X) (s : D) :
    val (l.foldl (fun s x => o.max s (o.abs (g x))) s) = (l.map (fun x => val (g x))).foldl (fun s x => Max.max s |x|) (val s) := by
  induction l generalizing s with
  | nil => rfl
  | cons x l ih => rw [List.foldl_cons, ih, List.map_cons, List.foldl_cons, H.max, H.abs]

/-- A buffer whose cells stand for the elements of a list. -/
theorem buf_of_map {val : D → ℝ} {b : Buf D} {l : List ℝ} (h : b.map (Option.map val) = l.map some) :
    ∃ l' : List D, b = l'.map some ∧ l'.map val = l := by
  induction b generalizing l with
  | nil => cases l with
    | nil => exact ⟨[], rfl, rfl⟩
    | cons x l => simp at h
  | cons x b ih =>
    cases l with
    | nil => simp at h
    | cons y l =>
      simp only [List.map_cons, List.cons.injEq] at h
      obtain ⟨l', rfl, rfl⟩ := ih h.2
      cases x with
      | none => simp at h
      | some x => simp at h; exact ⟨x :: l', rfl, by simp [h]⟩

/-- The list `l` holds the elements of the r×c matrix `e`, except perhaps zeros, and not more of them. -/
structure FCovers (val : D → ℝ) (l : List D) (r c : Nat) (e : Nat → Nat → ℝ) : Prop where
  cov : Covers (l.map val) r c e
  len : l.length ≤ r * c

theorem Dense.fcovers [Zero D] {val : D → ℝ} {A : Dense D} {r c : Nat} {f : Nat → Nat → D} (h : A.Is r c f) :
    ∃ l, A.data = l.map some ∧ FCovers val l r c (fun i j => val (f i j)) := by
  obtain ⟨l, hl, hc⟩ := (Dense.mapE_is val h).covers
  obtain ⟨l', h1, h2⟩ := buf_of_map (show A.data.map (Option.map val) = l.map some from hl)
  refine ⟨l', h1, by rw [h2]; exact hc, ?_⟩
  have := h.alloc
  rw [h1, List.length_map] at this
  omega

theorem run_length {run : List (Nat × D)} {K : Nat} (hs : run.Pairwise (fun a b => a.1 < b.1)) (hb : ∀ e ∈ run, e.1 < K) :
    run.length ≤ K := by
  have hn : (run.map Prod.fst).Nodup := by
    rw [List.nodup_iff_pairwise_ne, List.pairwise_map]
    exact hs.imp (fun h => Nat.ne_of_lt h)
  have := hn.subperm (l₂ := List.range K) (by
    intro x hx
    obtain ⟨e, he, rfl⟩ := List.mem_map.1 hx
    exact List.mem_range.2 (hb e he))
  have := this.length_le
  simpa using this

theorem flatten_length (L : List (List (Nat × D))) (K : Nat) (h : ∀ run ∈ L, run.length ≤ K) : L.flatten.length ≤ K * L.length := by
  induction L with
  | nil => simp
  | cons run L ih =>
    have h1 := h run (by simp)
    have h2 := ih (fun a ha => h a (by simp [ha]))
    rw [List.flatten_cons, List.length_append, List.length_cons, Nat.mul_succ]
    omega

theorem Sparse.fcovers [Zero D] {val : D → ℝ} (h0 : val 0 = 0) {S : Sparse D} {r c : Nat} {f : Nat → Nat → D} (h : S.Is r c f) (ho : S.ori = .col)
    (ht : S.Tight) : ∃ l, S.value = l.map some ∧ FCovers val l r c (fun i j => val (f i j)) := by
  obtain ⟨L, hL, hf⟩ := Sparse.mapE_is val h0 h
  simp only [show (S.mapE val).ori = .col from ho, Ori.minorIx, Ori.majorIx] at hf
  have ht' : (S.mapE val).Tight := by
    obtain ⟨n, h1, h2⟩ := ht
    exact ⟨n, h1, by rw [← h2]; simp [Sparse.mapE, Sparse.nnz]⟩
  obtain ⟨l, hl, hc⟩ := Sparse.covers hL (tight_flatten hL ht') ho hf
  obtain ⟨l', h1, h2⟩ := buf_of_map (show S.value.map (Option.map val) = l.map some from hl)
  refine ⟨l', h1, by rw [h2]; exact hc, ?_⟩
  obtain ⟨L', hL', -⟩ := h
  have e := tight_flatten hL' ht
  rw [h1, List.length_map] at e
  rw [e]
  have := flatten_length L' r (fun run hrun => run_length (hL'.sorted run hrun) (by
    have := hL'.bound run hrun; rw [ho] at this; exact this))
  have hlen : L'.length = c := by rw [hL'.runs, ho]; rfl
  rwa [hlen] at this

/-- What the three loops yield. -/
def FNorm (u : ℝ) (r c : Nat) (e : Nat → Nat → ℝ) (x : ℝ) : NormKind → Prop
  | .one => RelErr u (r * c) x (∑ i ∈ Finset.range r, ∑ j ∈ Finset.range c, |e i j|)
  | .two => 0 ≤ x ∧ RelErr u (r * c + 3) (x ^ 2) (∑ i ∈ Finset.range r, ∑ j ∈ Finset.range c, e i j ^ 2)
  | .max => IsNorm .max r c e x

/-- The three loops on the elements of a matrix. -/
theorem FCovers.norm [Zero D] [Add D] {o : FOps D} {val : D → ℝ} {u : ℝ} (H : NormRounding o val u) {l : List D} {r c : Nat}
    {e : Nat → Nat → ℝ} (h : FCovers val l r c e) (k : NormKind) :
    ∃ x, fnormBuf o k (l.map some) = .ok x ∧ FNorm u r c e (val x) k := by
  have h0 := H.nonneg
  have h1 := H.lt_one
  have hpos : ∀ G : ℝ → ℝ, (∀ x, 0 ≤ G x) → 0 ≤ ((l.map val).map G).sum := by
    intro G hG
    refine List.sum_nonneg ?_
    intro y hy
    obtain ⟨z, _, rfl⟩ := List.mem_map.1 hy
    exact hG z
  cases k with
  | one =>
    refine ⟨_, foldBuf_map _ _ _, ?_⟩
    have hs := h.cov.sums (fun x => |x|) (by simp)
    have := fold_sum H o.abs (fun x => |val x|) 0 l (fun x _ => ⟨abs_nonneg _, by rw [H.abs]; exact RelErr.refl⟩) 0 0 0
      (le_refl _) (le_refl _) (by rw [H.zero]; exact RelErr.zero)
    have hp := hpos (fun x => |x|) (fun _ => abs_nonneg _)
    rw [List.map_map] at hs hp
    rw [zero_add, zero_add] at this
    unfold FNorm
    rw [← hs]
    exact this.mono h0 h1 hp h.len
  | two =>
    refine ⟨o.sqrt (l.foldl (fun s x => s + o.sq x) 0), ?_, ?_⟩
    · show (foldBuf (fun s x => s + o.sq x) (l.map some) 0 >>= fun a => Except.ok (o.sqrt a)) = _
      rw [foldBuf_map]; rfl
    have hs := h.cov.sums (fun x => x ^ 2) (by simp)
    have := fold_sum H o.sq (fun x => val x ^ 2) 1 l (fun x _ => ⟨sq_nonneg _, by
        have := H.sq x
        exact RelErr.round (N := 0) h0 h1 (sq_nonneg _) RelErr.refl (by rwa [abs_of_nonneg (sq_nonneg (val x))])⟩) 0 0 1
      (le_refl _) (le_refl _) (by rw [H.zero]; exact RelErr.zero)
    have hp := hpos (fun x => x ^ 2) (fun _ => sq_nonneg _)
    rw [List.map_map] at hs hp
    rw [zero_add] at this
    have hN := this.nonneg h1 hp
    obtain ⟨p1, p2⟩ := this.sqrt h0 h1 hp (H.sqrt _ hN)
    refine ⟨p1, ?_⟩
    rw [← hs]
    exact p2.mono h0 h1 hp (by have := h.len; omega)
  | max =>
    refine ⟨_, foldBuf_map _ _ _, ?_⟩
    obtain ⟨y, hy, hn⟩ := h.cov.norm .max
    have e1 := foldl_max_val H (fun x => x) l 0
    have e2 : normBuf .max ((l.map val).map some) = .ok ((l.map val).foldl (fun s x => Max.max s |x|) 0) := foldBuf_map _ _ _
    rw [hy] at e2
    cases e2
    show IsNorm .max r c e (val (l.foldl (fun s x => o.max s (o.abs x)) 0))
    rw [e1, H.zero]
    exact hn

/-- Matrices with one part. -/
theorem TSMat.fnorm_sat [Zero F] [Zero D] [Add D] {o : FOps D} {val : D → ℝ} {u : ℝ} (H : NormRounding o val u) {up : F → D}
    (hup : up 0 = 0) {A : TSMat F D} {r c : Nat} {f : Nat → Nat → D} (hA : A.Is up r c f) {k : NormKind} (hk : TNormable k (.one A)) :
    ∃ x, A.fnorm o up k = .ok x ∧ FNorm u r c (fun i j => val (f i j)) (val x) k := by
  have hD := TSMat.toD_is hup hA
  cases A with
  | denseF A =>
    obtain ⟨l, e, hl⟩ := Dense.fcovers (val := val) hD.1
    obtain ⟨x, hx, hn⟩ := hl.norm H k
    exact ⟨x, by simp only [TSMat.fnorm]; rw [if_neg hk, e, hx], hn⟩
  | sparseF S =>
    obtain ⟨l, e, hl⟩ := Sparse.fcovers (val := val) H.zero hD.1 hD.2 (by
      obtain ⟨n, h1, h2⟩ := hk.2
      exact ⟨n, h1, by rw [← h2]; simp [Sparse.mapE, Sparse.nnz]⟩)
    obtain ⟨x, hx, hn⟩ := hl.norm H k
    exact ⟨x, by simp only [TSMat.fnorm]; rw [if_neg hk.1, e, hx], hn⟩
  | denseD A =>
    obtain ⟨l, e, hl⟩ := Dense.fcovers (val := val) hD.1
    obtain ⟨x, hx, hn⟩ := hl.norm H k
    exact ⟨x, by simp only [TSMat.fnorm]; rw [e, hx], hn⟩
  | sparseD S =>
    obtain ⟨l, e, hl⟩ := Sparse.fcovers (val := val) H.zero hD.1 hD.2 hk
    obtain ⟨x, hx, hn⟩ := hl.norm H k
    exact ⟨x, by simp only [TSMat.fnorm]; rw [e, hx], hn⟩
  | zero d =>
    have hk : k = .two := hk
    subst hk
    refine ⟨0, by simp [TSMat.fnorm], ?_⟩
    have h0 : ∑ i ∈ Finset.range r, ∑ j ∈ Finset.range c, val (f i j) ^ 2 = 0 :=
      Finset.sum_eq_zero fun i hi => Finset.sum_eq_zero fun j hj => by
        rw [hA.2.2 i j (Finset.mem_range.1 hi) (Finset.mem_range.1 hj), H.zero]; simp
    show 0 ≤ val 0 ∧ RelErr u (r * c + 3) (val 0 ^ 2) _
    rw [H.zero, h0]
    exact ⟨le_refl _, by simpa using RelErr.zero⟩

end BB
