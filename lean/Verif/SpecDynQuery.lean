import Verif.SpecDyn
import Verif.SpecNorm
import Verif.Model.DynQuery

/-!
# What queries in a program over dynamic matrices should answer

The memory of `SpecDyn`, with two notes: which matrices have been asked for their norm, and which are sparse matrices the
program constructed itself (without spare cells).
-/

namespace BB.Dyn

/-- The memory and the notes. -/
structure QStore where
  mem : Store ℝ
  asked : List Nat
  given : List Nat

/-- The statement changes matrix number `l` in place. -/
def Changes (t : Store ℝ) (o : Stmt ℝ) (l : Nat) : Prop := ∃ x y, (o = .addAssign x y ∨ o = .subAssign x y) ∧ t.vars x = some l

/-- The statement constructs a sparse matrix without spare cells. -/
def Gives (o : Stmt ℝ) : Prop := ∃ x S, o = .make x (.one (.sparse S)) ∧ S.Tight

/-- `QMeans t q a t'`: the answer to `q` should be `a`.  Queries are about the contents of the matrix at that moment. -/
inductive QMeans : QStore → QStmt ℝ ℝ → Ans ℝ → QStore → Prop
  | stmt {t : QStore} {o : Stmt ℝ} {m : Store ℝ} : Means t.mem o m → (∀ l, Changes t.mem o l → l ∉ t.asked ∧ l ∉ t.given) →
      QMeans t (.stmt o) .nothing ⟨m, t.asked, t.given⟩
  | give {t : QStore} {o : Stmt ℝ} {m : Store ℝ} : Means t.mem o m → Gives o → QMeans t (.stmt o) .nothing ⟨m, t.asked, t.mem.objs.length :: t.given⟩
  | rows {t : QStore} {x : Nat} {o : Obj ℝ} : t.mem.at x = some o → QMeans t (.rows x) (.nat o.rows) t
  | cols {t : QStore} {x : Nat} {o : Obj ℝ} : t.mem.at x = some o → QMeans t (.cols x) (.nat o.cols) t
  | size {t : QStore} {x : Nat} {o : Obj ℝ} : t.mem.at x = some o → (o.shape ≠ .one .zero ∧ ∀ k, o.shape ≠ .two .zero k) →
      QMeans t (.size x) (.nat (o.rows * o.cols)) t
  | norm {t : QStore} {x l : Nat} {o : Obj ℝ} {v : ℝ} : t.mem.vars x = some l → t.mem.objs[l]? = some o →
      (o.shape = .one .dense ∨ o.shape = .one .zero ∨ l ∈ t.given) → IsNorm .two o.rows o.cols o.elem v →
      QMeans t (.norm x) (.num v) ⟨t.mem, l :: t.asked, t.given⟩
  | normLarger {t : QStore} {x l : Nat} {o : Obj ℝ} {v w : ℝ} {b : Bool} : t.mem.vars x = some l → t.mem.objs[l]? = some o →
      (o.shape = .one .dense ∨ o.shape = .one .zero ∨ l ∈ t.given) → IsNorm .two o.rows o.cols o.elem v → (b = true ↔ w < v) →
      QMeans t (.normLarger x w) (.bool b) ⟨t.mem, l :: t.asked, t.given⟩

/-- The statements and queries of a program one after the other, with the answers. -/
inductive QRuns : QStore → List (QStmt ℝ ℝ) → List (Ans ℝ) → QStore → Prop
  | nil {t} : QRuns t [] [] t
  | cons {t t' t'' q a p as} : QMeans t q a t' → QRuns t' p as t'' → QRuns t (q :: p) (a :: as) t''

end BB.Dyn
