import Verif.Props.CodeGen

/-!
# C109: indentation of the templates
-/

namespace BB.Gen
theorem findTag_block {t : Text} (h : '{' ∉ t) (r : Text) : findTag (t ++ '{' :: '%' :: r) = some (t, true, r) := by
  induction t with
  | nil => simp [findTag]
  | cons c t ih =>
    have hc : c ≠ '{' := fun e => h (by simp [e])
    have ht : '{' ∉ t := fun e => h (by simp [e])
    have := ih ht
    rw [List.cons_append]
    unfold findTag
    split
    · rename_i heq; injection heq with h1 _; exact absurd h1 hc
    · rename_i heq; injection heq with h1 _; exact absurd h1 hc
    · rename_i heq; cases heq
    · rename_i c' r' _ _ heq
      cases heq
      simp [this]

theorem lstripBlock_blanks (ls : Bool) (t b : Text) (hb : ∀ c ∈ b, c = ' ' ∨ c = '\t') :
    lstripBlock ls (t ++ '\n' :: b) = t ++ ['\n'] := by
  have hn : ∀ c ∈ b.reverse, (decide (c ≠ '\n')) = true := by
    intro c hc
    rcases hb c (List.mem_reverse.1 hc) with rfl | rfl <;> decide
  have h1 : (t ++ '\n' :: b).reverse = b.reverse ++ '\n' :: t.reverse := by simp
  have h2 : lastLine (t ++ '\n' :: b) = b := by
    unfold lastLine
    rw [h1, List.takeWhile_append_of_pos hn]
    simp
  have h3 : (lastLine (t ++ '\n' :: b)).all (fun c => decide (c = ' ') || decide (c = '\t')) = true := by
    rw [h2, List.all_eq_true]
    intro c hc
    rcases hb c hc with rfl | rfl <;> decide
  unfold lstripBlock
  rw [if_pos (by rw [h3]; simp), h1, List.dropWhile_append_of_pos hn]
  simp

theorem lex_indentation (n : Nat) (ls : Bool) (t b r : Text) (ht : '{' ∉ t) (hb : ∀ c ∈ b, c = ' ' ∨ c = '\t')
    (hr : r.head? ≠ some '-' ∧ r.head? ≠ some '+') :
    lex n ls (t ++ '\n' :: b ++ '{' :: '%' :: r) = lex n ls (t ++ '\n' :: '{' :: '%' :: r) := by
  cases n with
  | zero => rfl
  | succ n =>
    have e1 : findTag (t ++ '\n' :: b ++ '{' :: '%' :: r) = some (t ++ '\n' :: b, true, r) := by
      refine findTag_block ?_ r
      intro h
      rcases List.mem_append.1 h with h | h
      · exact ht h
      · rcases List.mem_cons.1 h with h | h
        · exact absurd h (by decide)
        · rcases hb _ h with h | h <;> exact absurd h (by decide)
    have e2 : findTag (t ++ '\n' :: '{' :: '%' :: r) = some (t ++ '\n' :: [], true, r) := by
      have := findTag_block (t := t ++ '\n' :: []) (r := r) (by
        intro h
        rcases List.mem_append.1 h with h | h
        · exact ht h
        · rcases List.mem_cons.1 h with h | h
          · exact absurd h (by decide)
          · cases h)
      simpa using this
    have s1 := lstripBlock_blanks ls t b hb
    have s2 := lstripBlock_blanks ls t [] (by simp)
    simp only [lex, e1, e2, if_neg hr.1, if_neg hr.2, if_true, s1, s2]

theorem lex_mono (n k : Nat) (ls : Bool) (s : Text) (ts : List Tok) (h : lex n ls s = some ts) : lex (n + k) ls s = some ts := by
  induction n generalizing ls s ts with
  | zero => simp [lex] at h
  | succ n ih =>
    rw [Nat.add_right_comm]
    unfold lex at h ⊢
    split at h
    · exact h
    · rename_i t isBlock r heq
      simp only at h ⊢
      split at h
      · cases h
      · rename_i body rest hc
        split at h
        · cases h
        · rename_i ts' hl
          rw [ih _ _ _ hl]
          exact h

theorem chomp_append (a s : Text) : chomp (a ++ '{' :: '%' :: s) = a ++ '{' :: '%' :: chomp s := by
  unfold chomp
  cases s with
  | nil => simp
  | cons c s =>
    have e : (a ++ '{' :: '%' :: c :: s).getLast? = (c :: s).getLast? := by
      rw [show a ++ '{' :: '%' :: c :: s = (a ++ ['{', '%']) ++ (c :: s) by simp, List.getLast?_append]
      cases h : (c :: s).getLast? with
      | none => simp at h
      | some x => rfl
    rw [e]
    split
    · have : a ++ '{' :: '%' :: c :: s = (a ++ ['{', '%']) ++ (c :: s) := by simp
      rw [this, List.dropLast_append_of_ne_nil (by simp)]
      simp
    · rfl

/-- C109: how far a block tag of a template is indented does not change what is generated. -/
theorem C109_indentation (t b r out : Text) (d : Data) (ht : '{' ∉ t) (hb : ∀ c ∈ b, c = ' ' ∨ c = '\t')
    (hr : r.head? ≠ some '-' ∧ r.head? ≠ some '+') (h : generate (t ++ '\n' :: '{' :: '%' :: r) d = some out) :
    generate (t ++ '\n' :: b ++ '{' :: '%' :: r) d = some out := by
  have hr' : (chomp r).head? ≠ some '-' ∧ (chomp r).head? ≠ some '+' := by
    unfold chomp
    split
    · cases r with
      | nil => simp
      | cons c s =>
        cases s with
        | nil => simp
        | cons x s => simpa using hr
    · exact hr
  have e1 : t ++ '\n' :: '{' :: '%' :: r = (t ++ ['\n']) ++ '{' :: '%' :: r := by simp
  have e2 : (t ++ ['\n']) ++ '{' :: '%' :: chomp r = t ++ '\n' :: '{' :: '%' :: chomp r := by simp
  unfold generate parse at h ⊢
  rw [e1, chomp_append, e2] at h
  rw [chomp_append]
  cases hl : lex ((t ++ ['\n'] ++ '{' :: '%' :: r).length + 1) true (t ++ '\n' :: '{' :: '%' :: chomp r) with
  | none => rw [hl] at h; cases h
  | some ts =>
    rw [hl] at h
    have e3 : (t ++ '\n' :: b ++ '{' :: '%' :: r).length + 1 = ((t ++ ['\n'] ++ '{' :: '%' :: r).length + 1) + b.length := by
      simp only [List.length_append, List.length_cons, List.length_nil]; omega
    rw [e3, lex_indentation _ _ _ _ _ ht hb hr', lex_mono _ _ _ _ _ hl]
    exact h

/-- A template that meets the hypotheses. -/
example : generate (text "a\n" ++ text "{% for function in f %}\n{{ function.name }} \n{% endfor %}\n") (fun _ => [⟨text "int", text "g", []⟩]) =
    some (text "a\ng \n") := by decide +kernel

end BB.Gen
