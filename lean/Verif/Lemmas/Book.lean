import Verif.Model.Book

/-! # Histories of a workbook object -/

namespace Rxls

variable {F T K : Type} (kind : BookKind F T K)

theorem run_append (b : Book F T K) (xs ys : List (BookOp F)) :
    (b.run kind (xs ++ ys)).1 = ((b.run kind xs).1.run kind ys).1 := by
  induction xs generalizing b with
  | nil => rfl
  | cons op xs ih =>
    simp only [List.cons_append, Book.run]
    exact ih _

theorem run_cons (b : Book F T K) (op : BookOp F) (ys : List (BookOp F)) :
    (b.run kind (op :: ys)).1 = ((b.step kind op).1.run kind ys).1 := rfl

/-- An invariant of every operation holds after every history. -/
theorem run_invariant {P : Book F T K → Prop} {Q : BookOp F → Prop}
    (h : ∀ b op, P b → Q op → P (b.step kind op).1) :
    ∀ (ops : List (BookOp F)) (b : Book F T K), P b → (∀ op ∈ ops, Q op) → P (b.run kind ops).1
  | [], _, hb, _ => hb
  | op :: ops, b, hb, ho => by
    rw [run_cons]
    exact run_invariant h ops _ (h b op hb (ho op (by simp))) fun o h' => ho o (by simp [h'])

/-- What the properties do to the object. -/
theorem getSheets_state (b : Book F T K) :
    ((b.getSheets kind).1 = b ∧ ((∃ e, (b.getSheets kind).2 = .error e) ∨ ∃ l, b.sheets = some l ∧ (b.getSheets kind).2 = .ok l)) ∨
    ∃ f l, b.sheets = none ∧ b.zip = .opened f ∧ kind.sheets f = .ok l ∧
      b.getSheets kind = ({ b with sheets := some l }, .ok l) := by
  unfold Book.getSheets
  cases hs : b.sheets with
  | some l => exact .inl ⟨rfl, .inr ⟨l, rfl, rfl⟩⟩
  | none =>
    cases hz : b.zip with
    | none => exact .inl ⟨rfl, .inl ⟨_, rfl⟩⟩
    | closed => exact .inl ⟨rfl, .inl ⟨_, rfl⟩⟩
    | opened f =>
      simp only [ZipState.file]
      cases hf : kind.sheets f with
      | error e => exact .inl ⟨rfl, .inl ⟨_, rfl⟩⟩
      | ok l => exact .inr ⟨f, l, by simp, by simp, hf, rfl⟩

theorem getStyles_state (b : Book F T K) :
    ((b.getStyles kind).1 = b ∧ ((∃ e, (b.getStyles kind).2 = .error e) ∨ ∃ l, b.styles = some l ∧ (b.getStyles kind).2 = .ok l)) ∨
    ∃ f l, b.styles = none ∧ b.zip = .opened f ∧ kind.styles f = .ok l ∧
      b.getStyles kind = ({ b with styles := some l }, .ok l) := by
  unfold Book.getStyles
  cases hs : b.styles with
  | some l => exact .inl ⟨rfl, .inr ⟨l, rfl, rfl⟩⟩
  | none =>
    cases hz : b.zip with
    | none => exact .inl ⟨rfl, .inl ⟨_, rfl⟩⟩
    | closed => exact .inl ⟨rfl, .inl ⟨_, rfl⟩⟩
    | opened f =>
      simp only [ZipState.file]
      cases hf : kind.styles f with
      | error e => exact .inl ⟨rfl, .inl ⟨_, rfl⟩⟩
      | ok l => exact .inr ⟨f, l, by simp, by simp, hf, rfl⟩

theorem getShared_state (b : Book F T K) :
    ((b.getShared kind).1 = b ∧ ((∃ e, (b.getShared kind).2 = .error e) ∨ ∃ l, b.shared = some l ∧ (b.getShared kind).2 = .ok l)) ∨
    ∃ f l ks, b.shared = none ∧ b.zip = .opened f ∧ kind.shared f = .ok (l, ks) ∧
      b.getShared kind = ({ b with shared := some l, nulls := b.nulls ++ ks }, .ok l) := by
  unfold Book.getShared
  cases hs : b.shared with
  | some l => exact .inl ⟨rfl, .inr ⟨l, rfl, rfl⟩⟩
  | none =>
    cases hz : b.zip with
    | none => exact .inl ⟨rfl, .inl ⟨_, rfl⟩⟩
    | closed => exact .inl ⟨rfl, .inl ⟨_, rfl⟩⟩
    | opened f =>
      simp only [ZipState.file]
      cases hf : kind.shared f with
      | error e => exact .inl ⟨rfl, .inl ⟨_, rfl⟩⟩
      | ok p => obtain ⟨l, ks⟩ := p; exact .inr ⟨f, l, ks, by simp, by simp, hf, rfl⟩

/-- The state after an iteration is the one before, after `sheets`, or after `sheets` and `styles`. -/
theorem iterate_state (b : Book F T K) (a : IterArgs) :
    (b.iterate kind a).1 = b ∨ (b.iterate kind a).1 = (b.getSheets kind).1 ∨
      (b.iterate kind a).1 = ((b.getSheets kind).1.getStyles kind).1 := by
  unfold Book.iterate
  cases hz : b.zip with
  | none => exact .inl rfl
  | _ =>
    simp only
    right
    generalize b.getSheets kind = r
    obtain ⟨b1, r1⟩ := r
    cases r1 with
    | error e => exact .inl rfl
    | ok l =>
      simp only
      cases selectSheet l a.sheet with
      | error e => exact .inl rfl
      | ok p =>
        simp only
        cases checkRows a.skipRows a.takeRows with
        | error e => exact .inl rfl
        | ok q =>
          obtain ⟨s, t⟩ := q
          simp only
          cases b1.zip.file with
          | error e => exact .inl rfl
          | ok f =>
            right
            simp only
            generalize b1.getStyles kind = r
            obtain ⟨b2, r2⟩ := r
            cases r2 <;> rfl

/-- A predicate kept by the five changes of the object is kept by every operation. -/
theorem step_invariant {P : Book F T K → Prop} (b : Book F T K) (op : BookOp F) (hb : P b)
    (hz : ∀ f, op = .enter f → P { b with zip := .opened f })
    (hc : b.zip ≠ .none → P { b with zip := .closed })
    (h1 : ∀ (c : Book F T K) f l, c.zip = b.zip → P c → c.sheets = none → c.zip = .opened f → kind.sheets f = .ok l →
      P { c with sheets := some l })
    (h2 : ∀ (c : Book F T K) f l ks, c.zip = b.zip → P c → c.shared = none → c.zip = .opened f →
      kind.shared f = .ok (l, ks) → P { c with shared := some l, nulls := c.nulls ++ ks })
    (h3 : ∀ (c : Book F T K) f l, c.zip = b.zip → P c → c.styles = none → c.zip = .opened f → kind.styles f = .ok l →
      P { c with styles := some l }) : P (b.step kind op).1 := by
  have g1 : ∀ c : Book F T K, c.zip = b.zip → P c → P (c.getSheets kind).1 ∧ (c.getSheets kind).1.zip = b.zip := by
    intro c hc hp
    rcases getSheets_state kind c with ⟨h, _⟩ | ⟨f, l, ha, hb', hk, h⟩
    · rw [h]; exact ⟨hp, hc⟩
    · rw [h]; exact ⟨h1 c f l hc hp ha hb' hk, hc⟩
  have g3 : ∀ c : Book F T K, c.zip = b.zip → P c → P (c.getStyles kind).1 := by
    intro c hc hp
    rcases getStyles_state kind c with ⟨h, _⟩ | ⟨f, l, ha, hb', hk, h⟩
    · rw [h]; exact hp
    · rw [h]; exact h3 c f l hc hp ha hb' hk
  cases op with
  | enter f => exact hz f rfl
  | exit =>
    simp only [Book.step]
    cases hzz : b.zip with
    | none => exact hb
    | opened f => exact hc (by rw [hzz]; simp)
    | closed => exact hc (by rw [hzz]; simp)
  | sheets => exact (g1 b rfl hb).1
  | shared =>
    change P (b.getShared kind).1
    rcases getShared_state kind b with ⟨h, _⟩ | ⟨f, l, ks, ha, hb', hk, h⟩
    · rw [h]; exact hb
    · rw [h]; exact h2 b f l ks rfl hb ha hb' hk
  | styles => exact g3 b rfl hb
  | iterate a =>
    change P (b.iterate kind a).1
    rcases iterate_state kind b a with h | h | h
    · rw [h]; exact hb
    · rw [h]; exact (g1 b rfl hb).1
    · rw [h]; exact g3 _ (g1 b rfl hb).2 (g1 b rfl hb).1

end Rxls
