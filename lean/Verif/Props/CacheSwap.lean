import Verif.Props.Cache
namespace BB.Cache
variable {M R V : Type}

/-- An object whose counts have not been asked for counts its elements. -/
theorem step_count_fresh [LT R] [DecidableLT R] (K : Ops M R V) (p : Pool M R V) (x : Nat) (o : Obj M R V) (hx : p x = some o)
    (ho : o.occ = []) (k : Checker R) : (step K p (.count x k)).map Prod.snd = (K.cnt k o.mat).map Ans.count := by
  cases h : K.cnt k o.mat <;> simp [step, Pool.get, hx, Obj.getCount, lookup, ho, h] <;> rfl

/-- Exchanging two objects whose counts have not been asked for. -/
theorem step_swap_fresh [LT R] [DecidableLT R] (K : Ops M R V) (p : Pool M R V) (x y : Nat) (h : x ≠ y)
    (A B : M) (hx : p x = some (.fresh A)) (hy : p y = some (.fresh B)) :
    ∃ p', run K [.swap x y] p = .ok p' ∧ p' x = some (.fresh (K.swapped A B).1) ∧ p' y = some (.fresh (K.swapped A B).2) := by
  refine ⟨_, by simp [run, step, Pool.get, hx, hy]; rfl, ?_, ?_⟩ <;> simp [Pool.set, Obj.fresh, h]

/-- C33 for exchanged matrices: if two dense matrices whose counts have not been asked for are exchanged with `swap`, each
answers every question about its elements with the count of the other's former elements. -/
theorem C33_swap_dense_partial [LinearOrder R] [AddGroup R] (nrm : Dense R → Res V) (p : Pool (Dense R) R V) (x y : Nat) (h : x ≠ y)
    (A B : Dense R) (hx : p x = some (.fresh A)) (hy : p y = some (.fresh B)) :
    ∃ p', run (denseOps nrm) [.swap x y] p = .ok p' ∧ ∀ k,
      (step (denseOps nrm) p' (.count x k)).map Prod.snd = (B.countSig k).map Ans.count ∧
      (step (denseOps nrm) p' (.count y k)).map Prod.snd = (A.countSig k).map Ans.count := by
  obtain ⟨p', h1, h2, h3⟩ := step_swap_fresh (denseOps nrm) p x y h A B hx hy
  exact ⟨p', h1, fun k => ⟨step_count_fresh _ _ _ _ h2 rfl k, step_count_fresh _ _ _ _ h3 rfl k⟩⟩

/-- C33 for exchanged sparse matrices. -/
theorem C33_swap_sparse_partial [LinearOrder R] [AddGroup R] (nrm : Sparse R → Res V) (p : Pool (Sparse R) R V) (x y : Nat) (h : x ≠ y)
    (A B : Sparse R) (hx : p x = some (.fresh A)) (hy : p y = some (.fresh B)) :
    ∃ p', run (sparseOps nrm) [.swap x y] p = .ok p' ∧ ∀ k,
      (step (sparseOps nrm) p' (.count x k)).map Prod.snd = (B.countSig k).map Ans.count ∧
      (step (sparseOps nrm) p' (.count y k)).map Prod.snd = (A.countSig k).map Ans.count := by
  obtain ⟨p', h1, h2, h3⟩ := step_swap_fresh (sparseOps nrm) p x y h A B hx hy
  exact ⟨p', h1, fun k => ⟨step_count_fresh _ _ _ _ h2 rfl k, step_count_fresh _ _ _ _ h3 rfl k⟩⟩

/-- The hypotheses hold for two matrices that have just been constructed. -/
example : ∃ p : Pool (Dense Int) Int Int, run (denseOps (fun _ => .ok 0)) [.make 0 (Dense.ofFn .col 1 2 (fun _ j => (j : Int))),
    .make 1 (Dense.ofFn .col 1 1 (fun _ _ => (5 : Int)))] (fun _ => none) = .ok p ∧
    p 0 = some (.fresh (Dense.ofFn .col 1 2 (fun _ j => (j : Int)))) ∧ p 1 = some (.fresh (Dense.ofFn .col 1 1 (fun _ _ => (5 : Int)))) :=
  ⟨_, rfl, rfl, rfl⟩
end BB.Cache
