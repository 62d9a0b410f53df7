import Verif.Lemmas.Book
import Verif.Props.ReadFile

/-! # Property C82: workbook objects, for every history of use -/

namespace Rxls

variable {F T K : Type}

/-- The answer of a new workbook object to an operation, after a history of other operations. -/
def Book.answer (kind : BookKind F T K) (history : List (BookOp F)) (op : BookOp F) : BookOut T :=
  ((Book.run kind {} history).1.step kind op).2

/-- Only this file is ever opened. -/
def OnlyFile (f : F) (history : List (BookOp F)) : Prop := ∀ g, .enter g ∈ history → g = f

/-- C82.  As long as the object has not been opened, every use raises `RuntimeError`. -/
theorem C82_not_open (kind : BookKind F T K) (history : List (BookOp F)) (h : ∀ f, .enter f ∉ history) :
    Book.answer kind history .sheets = .raised .runtimeError ∧ Book.answer kind history .shared = .raised .runtimeError ∧
    Book.answer kind history .styles = .raised .runtimeError ∧
    ∀ a, Book.answer kind history (.iterate a) = .raised .runtimeError := by
  have key : (Book.run kind {} history).1.zip = .none ∧ (Book.run kind {} history).1.sheets = none ∧
      (Book.run kind {} history).1.shared = none ∧ (Book.run kind {} history).1.styles = none := by
    refine run_invariant kind (P := fun b => b.zip = .none ∧ b.sheets = none ∧ b.shared = none ∧ b.styles = none)
      (Q := fun op => ∀ f, op ≠ .enter f) ?_ history {} ⟨rfl, rfl, rfl, rfl⟩ (fun op ho f he => h f (he ▸ ho))
    intro b op hb ho
    refine step_invariant kind (P := fun b => b.zip = .none ∧ b.sheets = none ∧ b.shared = none ∧ b.styles = none) b op hb
      (fun f he => absurd he (ho f)) (fun hz => absurd hb.1 hz) ?_ ?_ ?_
    · intro c f l _ hc _ hz; rw [hc.1] at hz; simp at hz
    · intro c f l ks _ hc _ hz; rw [hc.1] at hz; simp at hz
    · intro c f l _ hc _ hz; rw [hc.1] at hz; simp at hz
  unfold Book.answer
  generalize (Book.run kind {} history).1 = b at key ⊢
  obtain ⟨h1, h2, h3, h4⟩ := key
  simp only [Book.step, Book.getSheets, Book.getShared, Book.getStyles, Book.iterate, h1, h2, h3, h4, ZipState.file,
    BookOut.of]
  simp

/-- What is known of the object when only `f` is ever opened. -/
structure Book.Of (kind : BookKind F T K) (f : F) (b : Book F T K) : Prop where
  zip : ∀ g, b.zip = .opened g → g = f
  sheets : ∀ l, b.sheets = some l → kind.sheets f = .ok l
  styles : ∀ l, b.styles = some l → kind.styles f = .ok l
  shared : (b.shared = none ∧ b.nulls = []) ∨
    ∃ l ks, kind.shared f = .ok (l, ks) ∧ b.shared = some l ∧ b.nulls = ks

theorem Book.Of.history {kind : BookKind F T K} {f : F} {history : List (BookOp F)} (h : OnlyFile f history) :
    (Book.run kind {} history).1.Of kind f := by
  refine run_invariant kind (P := Book.Of kind f) (Q := fun op => ∀ g, op = .enter g → g = f) ?_ history {}
    ⟨by simp, by simp, by simp, .inl ⟨rfl, rfl⟩⟩ (fun op ho g he => h g (he ▸ ho))
  intro b op hb ho
  refine step_invariant kind b op hb ?_ ?_ ?_ ?_ ?_
  · intro g he
    refine ⟨fun g' hg' => ?_, hb.sheets, hb.styles, hb.shared⟩
    simp only [ZipState.opened.injEq] at hg'
    exact hg' ▸ ho g he
  · intro _
    exact ⟨by simp, hb.sheets, hb.styles, hb.shared⟩
  · intro c g l _ hc _ hz hk
    have := hc.zip g hz; subst this
    refine ⟨hc.zip, fun l' h' => ?_, hc.styles, hc.shared⟩
    simp only [Option.some.injEq] at h'
    exact h' ▸ hk
  · intro c g l ks _ hc hn hz hk
    have := hc.zip g hz; subst this
    refine ⟨hc.zip, hc.sheets, hc.styles, .inr ⟨l, ks, hk, rfl, ?_⟩⟩
    rcases hc.shared with ⟨_, h2⟩ | ⟨l', ks', _, h2, _⟩
    · simp [h2]
    · rw [hn] at h2; simp at h2
  · intro c g l _ hc _ hz hk
    have := hc.zip g hz; subst this
    refine ⟨hc.zip, hc.sheets, fun l' h' => ?_, hc.shared⟩
    simp only [Option.some.injEq] at h'
    exact h' ▸ hk

/-- The object is open after a history that ends with opening it and no closing. -/
theorem zip_opened (kind : BookKind F T K) (f : F) (before after : List (BookOp F)) (h : OnlyFile f after)
    (he : .exit ∉ after) : (Book.run kind {} (before ++ .enter f :: after)).1.zip = .opened f := by
  rw [run_append, run_cons]
  refine run_invariant kind (P := fun b => b.zip = .opened f) (Q := fun op => op ≠ .exit ∧ ∀ g, op = .enter g → g = f)
    ?_ after _ rfl (fun op ho => ⟨fun e => he (e ▸ ho), fun g e => h g (e ▸ ho)⟩)
  rintro b op hb ⟨h1, h2⟩
  cases op with
  | exit => exact absurd rfl h1
  | enter g => exact congrArg ZipState.opened (h2 g rfl)
  | sheets =>
    change (b.getSheets kind).1.zip = _
    rcases getSheets_state kind b with ⟨h, _⟩ | ⟨f, l, _, _, _, h⟩ <;> rw [h] <;> exact hb
  | shared =>
    change (b.getShared kind).1.zip = _
    rcases getShared_state kind b with ⟨h, _⟩ | ⟨f, l, ks, _, _, _, h⟩ <;> rw [h] <;> exact hb
  | styles =>
    change (b.getStyles kind).1.zip = _
    rcases getStyles_state kind b with ⟨h, _⟩ | ⟨f, l, _, _, _, h⟩ <;> rw [h] <;> exact hb
  | iterate a =>
    change (b.iterate kind a).1.zip = _
    have g1 : (b.getSheets kind).1.zip = .opened f := by
      rcases getSheets_state kind b with ⟨h, _⟩ | ⟨f, l, _, _, _, h⟩ <;> rw [h] <;> exact hb
    rcases iterate_state kind b a with h | h | h
    · rw [h]; exact hb
    · rw [h]; exact g1
    · rw [h]
      rcases getStyles_state kind (b.getSheets kind).1 with ⟨h, _⟩ | ⟨f, l, _, _, _, h⟩ <;> rw [h] <;> exact g1

/-- The cells of a sheet, in terms of the file alone; `nulls` are the shared strings known to be null. -/
def sheetCells (kind : BookKind F T K) (f : F) (nulls : List K) (a : IterArgs) : Py (List Ev) :=
  match kind.sheets f with
  | .error .stopIteration => .error .runtimeError
  | .error e => .error e
  | .ok sheets =>
    match selectSheet sheets a.sheet with
    | .error e => .error e
    | .ok path =>
      match checkRows a.skipRows a.takeRows with
      | .error e => .error e
      | .ok (skip, take) =>
        match kind.styles f with
        | .error e => .error e
        | .ok styles => kind.cells f path ⟨skip, take, a.keepEmpty, a.skipCols⟩ styles nulls

/-- C82.  While a file is open, and no other one has ever been opened with the object, `sheets`, `shared` and `styles`
are those of the file, or raise what reading the file raises, whatever has been done before. -/
theorem C82_while_open (kind : BookKind F T K) (f : F) (before after : List (BookOp F)) (h1 : OnlyFile f before)
    (h2 : OnlyFile f after) (he : .exit ∉ after) :
    Book.answer kind (before ++ .enter f :: after) .sheets = .of .sheets (kind.sheets f) ∧
    Book.answer kind (before ++ .enter f :: after) .shared = .of (.shared ·.1) (kind.shared f) ∧
    Book.answer kind (before ++ .enter f :: after) .styles = .of .styles (kind.styles f) := by
  have hz := zip_opened kind f before after h2 he
  have hb : (Book.run kind {} (before ++ .enter f :: after)).1.Of kind f := by
    refine Book.Of.history fun g hg => ?_
    rcases List.mem_append.mp hg with h | h
    · exact h1 g h
    · rcases List.mem_cons.mp h with h | h
      · injection h
      · exact h2 g h
  unfold Book.answer
  generalize (Book.run kind {} (before ++ .enter f :: after)).1 = b at hz hb ⊢
  refine ⟨?_, ?_, ?_⟩
  · simp only [Book.step, Book.getSheets]
    cases hs : b.sheets with
    | some l => rw [hb.sheets l hs]
    | none =>
      simp only [hz, ZipState.file]
      cases kind.sheets f <;> rfl
  · simp only [Book.step, Book.getShared]
    rcases hb.shared with ⟨hs, _⟩ | ⟨l, ks, hk, hs, _⟩
    · simp only [hs, hz, ZipState.file]
      cases kind.shared f with
      | error e => rfl
      | ok p => rfl
    · simp only [hs, hk]
      rfl
  · simp only [Book.step, Book.getStyles]
    cases hs : b.styles with
    | some l => rw [hb.styles l hs]
    | none =>
      simp only [hz, ZipState.file]
      cases kind.styles f <;> rfl

/-- C82.  The cells of a sheet while the file is open: those of the file, with the null shared strings left out if and
only if the object knows them.  It knows all or none. -/
theorem C82_cells (kind : BookKind F T K) (f : F) (before after : List (BookOp F)) (h1 : OnlyFile f before)
    (h2 : OnlyFile f after) (he : .exit ∉ after) :
    ∃ nulls, (nulls = [] ∨ ∃ l, kind.shared f = .ok (l, nulls)) ∧
      (.shared ∉ before ++ after → nulls = []) ∧ (.shared ∈ after → ∀ l ks, kind.shared f = .ok (l, ks) → nulls = ks) ∧
      ∀ a, Book.answer kind (before ++ .enter f :: after) (.iterate a) = .of .cells (sheetCells kind f nulls a) := by
  have hz := zip_opened kind f before after h2 he
  have hb : (Book.run kind {} (before ++ .enter f :: after)).1.Of kind f := by
    refine Book.Of.history fun g hg => ?_
    rcases List.mem_append.mp hg with h | h
    · exact h1 g h
    · rcases List.mem_cons.mp h with h | h
      · injection h
      · exact h2 g h
  have hno : .shared ∉ before ++ after → (Book.run kind {} (before ++ .enter f :: after)).1.nulls = [] := by
    intro hn
    refine run_invariant kind (P := fun b => b.nulls = []) (Q := fun op => op ≠ .shared) ?_ _ _ rfl (fun op ho e => ?_)
    · intro b op hb ho
      cases op with
      | shared => exact absurd rfl ho
      | enter g => exact hb
      | exit =>
        simp only [Book.step]
        cases b.zip <;> exact hb
      | sheets =>
        change (b.getSheets kind).1.nulls = _
        rcases getSheets_state kind b with ⟨h, _⟩ | ⟨f, l, _, _, _, h⟩ <;> rw [h] <;> exact hb
      | styles =>
        change (b.getStyles kind).1.nulls = _
        rcases getStyles_state kind b with ⟨h, _⟩ | ⟨f, l, _, _, _, h⟩ <;> rw [h] <;> exact hb
      | iterate a =>
        change (b.iterate kind a).1.nulls = _
        have g1 : (b.getSheets kind).1.nulls = [] := by
          rcases getSheets_state kind b with ⟨h, _⟩ | ⟨f, l, _, _, _, h⟩ <;> rw [h] <;> exact hb
        rcases iterate_state kind b a with h | h | h
        · rw [h]; exact hb
        · rw [h]; exact g1
        · rw [h]
          rcases getStyles_state kind (b.getSheets kind).1 with ⟨h, _⟩ | ⟨f, l, _, _, _, h⟩ <;> rw [h] <;> exact g1
    · subst e
      rcases List.mem_append.mp ho with h | h
      · exact hn (List.mem_append_left _ h)
      · rcases List.mem_cons.mp h with h | h
        · simp at h
        · exact hn (List.mem_append_right _ h)
  have hyes : .shared ∈ after → ∀ l ks, kind.shared f = .ok (l, ks) →
      (Book.run kind {} (before ++ .enter f :: after)).1.shared ≠ none := by
    intro hs l ks hk
    obtain ⟨a1, a2, rfl⟩ := List.append_of_mem hs
    have e : before ++ BookOp.enter f :: (a1 ++ .shared :: a2) = (before ++ .enter f :: a1) ++ .shared :: a2 := by simp
    have hz1 := zip_opened kind f before a1 (fun g hg => h2 g (by simp [hg])) (fun h => he (by simp [h]))
    rw [e, run_append, run_cons]
    refine run_invariant kind (P := fun b => b.shared ≠ none) (Q := fun _ => True) ?_ a2 _ ?_ (by simp)
    · intro b op hb _
      exact step_invariant kind (P := fun b => b.shared ≠ none) b op hb (fun _ _ => hb) (fun _ => hb) (fun c _ _ _ hc _ _ _ => hc)
        (fun c _ _ _ _ _ _ _ _ => by simp) (fun c _ _ _ hc _ _ _ => hc)
    · generalize (Book.run kind {} (before ++ .enter f :: a1)).1 = b at hz1 ⊢
      simp only [Book.step, Book.getShared]
      cases hb : b.shared with
      | some l => simp [hb]
      | none => simp [hz1, ZipState.file, hk]
  refine ⟨(Book.run kind {} (before ++ .enter f :: after)).1.nulls, ?_, hno, ?_, ?_⟩
  · rcases hb.shared with ⟨_, h⟩ | ⟨l, ks, hk, _, h⟩
    · exact .inl h
    · exact .inr ⟨l, by rw [h]; exact hk⟩
  · intro hs l ks hk
    rcases hb.shared with ⟨h, _⟩ | ⟨l', ks', hk', _, h⟩
    · exact absurd h (hyes hs l ks hk)
    · rw [hk] at hk'
      injection hk' with hk'
      injection hk' with _ hk'
      rw [h, hk']
  · intro a
    unfold Book.answer
    generalize (Book.run kind {} (before ++ .enter f :: after)).1 = b at hz hb ⊢
    simp only [Book.step, Book.iterate, hz, sheetCells]
    congr 1
    have hsheets : (b.getSheets kind).2 = kind.sheets f ∧ (b.getSheets kind).1.zip = .opened f ∧
        (b.getSheets kind).1.styles = b.styles ∧ (b.getSheets kind).1.nulls = b.nulls := by
      unfold Book.getSheets
      cases hs : b.sheets with
      | some l => exact ⟨(hb.sheets l hs).symm, hz, rfl, rfl⟩
      | none =>
        simp only [hz, ZipState.file]
        cases kind.sheets f with
        | error e => exact ⟨rfl, hz, rfl, rfl⟩
        | ok l => exact ⟨rfl, rfl, rfl, rfl⟩
    generalize b.getSheets kind = r at hsheets ⊢
    obtain ⟨b1, r1⟩ := r
    obtain ⟨e1, e2, e3, e4⟩ := hsheets
    simp only at e1 e2 e3 e4
    subst e1
    cases kind.sheets f with
    | error e => cases e <;> rfl
    | ok l =>
      simp only
      cases selectSheet l a.sheet with
      | error e => rfl
      | ok p =>
        simp only
        cases checkRows a.skipRows a.takeRows with
        | error e => rfl
        | ok q =>
          obtain ⟨s, t⟩ := q
          simp only [e2, ZipState.file]
          have hst : (b1.getStyles kind).2 = kind.styles f ∧ (b1.getStyles kind).1.nulls = b.nulls := by
            unfold Book.getStyles
            cases hs : b1.styles with
            | some l => exact ⟨(hb.styles l (by rw [← e3]; exact hs)).symm, e4⟩
            | none =>
              simp only [e2, ZipState.file]
              cases kind.styles f with
              | error e => exact ⟨rfl, e4⟩
              | ok l => exact ⟨rfl, e4⟩
          generalize b1.getStyles kind = r at hst ⊢
          obtain ⟨b2, r2⟩ := r
          obtain ⟨k1, k2⟩ := hst
          simp only at k1 k2
          subst k1
          cases kind.styles f with
          | error e => rfl
          | ok st => simp only [k2]

/-- C82.  A value once served is served for ever: after closing, after opening another file, after anything. -/
theorem C82_stable (kind : BookKind F T K) (before after : List (BookOp F)) :
    (∀ l, Book.answer kind before .sheets = .sheets l →
      Book.answer kind (before ++ .sheets :: after) .sheets = .sheets l) ∧
    (∀ l, Book.answer kind before .shared = .shared l →
      Book.answer kind (before ++ .shared :: after) .shared = .shared l) ∧
    (∀ l, Book.answer kind before .styles = .styles l →
      Book.answer kind (before ++ .styles :: after) .styles = .styles l) := by
  refine ⟨fun l h => ?_, fun l h => ?_, fun l h => ?_⟩
  · have : (Book.run kind {} (before ++ .sheets :: after)).1.sheets = some l := by
      rw [run_append, run_cons]
      refine run_invariant kind (P := fun b => b.sheets = some l) (Q := fun _ => True) ?_ after _ ?_ (by simp)
      · intro b op hb _
        exact step_invariant kind (P := fun b => b.sheets = some l) b op hb (fun _ _ => hb) (fun _ => hb)
          (fun c _ _ _ hc hn _ _ => by rw [hn] at hc; simp at hc) (fun c _ _ _ _ hc _ _ _ => hc) (fun c _ _ _ hc _ _ _ => hc)
      · unfold Book.answer at h
        generalize (Book.run kind {} before).1 = b at h ⊢
        simp only [Book.step] at h ⊢
        rcases getSheets_state kind b with ⟨h1, h2⟩ | ⟨f, l', _, _, _, h1⟩
        · rcases h2 with ⟨e, h2⟩ | ⟨l', h2, h3⟩
          · rw [h2] at h; simp [BookOut.of] at h
          · rw [h3] at h
            simp only [BookOut.of, BookOut.sheets.injEq] at h
            rw [h1, h2, h]
        · rw [h1] at h ⊢
          simp only [BookOut.of, BookOut.sheets.injEq] at h
          rw [h]
    simp only [Book.answer, Book.step, Book.getSheets, this]
    rfl
  · have : (Book.run kind {} (before ++ .shared :: after)).1.shared = some l := by
      rw [run_append, run_cons]
      refine run_invariant kind (P := fun b => b.shared = some l) (Q := fun _ => True) ?_ after _ ?_ (by simp)
      · intro b op hb _
        exact step_invariant kind (P := fun b => b.shared = some l) b op hb (fun _ _ => hb) (fun _ => hb)
          (fun c _ _ _ hc _ _ _ => hc) (fun c _ _ _ _ hc hn _ _ => by rw [hn] at hc; simp at hc) (fun c _ _ _ hc _ _ _ => hc)
      · unfold Book.answer at h
        generalize (Book.run kind {} before).1 = b at h ⊢
        simp only [Book.step] at h ⊢
        rcases getShared_state kind b with ⟨h1, h2⟩ | ⟨f, l', ks, _, _, _, h1⟩
        · rcases h2 with ⟨e, h2⟩ | ⟨l', h2, h3⟩
          · rw [h2] at h; simp [BookOut.of] at h
          · rw [h3] at h
            simp only [BookOut.of, BookOut.shared.injEq] at h
            rw [h1, h2, h]
        · rw [h1] at h ⊢
          simp only [BookOut.of, BookOut.shared.injEq] at h
          rw [h]
    simp only [Book.answer, Book.step, Book.getShared, this]
    rfl
  · have : (Book.run kind {} (before ++ .styles :: after)).1.styles = some l := by
      rw [run_append, run_cons]
      refine run_invariant kind (P := fun b => b.styles = some l) (Q := fun _ => True) ?_ after _ ?_ (by simp)
      · intro b op hb _
        exact step_invariant kind (P := fun b => b.styles = some l) b op hb (fun _ _ => hb) (fun _ => hb)
          (fun c _ _ _ hc _ _ _ => hc) (fun c _ _ _ _ hc _ _ _ => hc) (fun c _ _ _ hc hn _ _ => by rw [hn] at hc; simp at hc)
      · unfold Book.answer at h
        generalize (Book.run kind {} before).1 = b at h ⊢
        simp only [Book.step] at h ⊢
        rcases getStyles_state kind b with ⟨h1, h2⟩ | ⟨f, l', _, _, _, h1⟩
        · rcases h2 with ⟨e, h2⟩ | ⟨l', h2, h3⟩
          · rw [h2] at h; simp [BookOut.of] at h
          · rw [h3] at h
            simp only [BookOut.of, BookOut.styles.injEq] at h
            rw [h1, h2, h]
        · rw [h1] at h ⊢
          simp only [BookOut.of, BookOut.styles.injEq] at h
          rw [h]
    simp only [Book.answer, Book.step, Book.getStyles, this]
    rfl

/-- The parts the object has kept come from files it was opened with. -/
theorem kept_from_file (kind : BookKind F T K) (history : List (BookOp F)) :
    (∀ f, (Book.run kind {} history).1.zip = .opened f → .enter f ∈ history) ∧
    (∀ l, (Book.run kind {} history).1.sheets = some l → ∃ f, .enter f ∈ history ∧ kind.sheets f = .ok l) ∧
    (∀ l, (Book.run kind {} history).1.shared = some l → ∃ f ks, .enter f ∈ history ∧ kind.shared f = .ok (l, ks)) ∧
    (∀ l, (Book.run kind {} history).1.styles = some l → ∃ f, .enter f ∈ history ∧ kind.styles f = .ok l) := by
  refine run_invariant kind (P := fun b => (∀ f, b.zip = .opened f → .enter f ∈ history) ∧
    (∀ l, b.sheets = some l → ∃ f, .enter f ∈ history ∧ kind.sheets f = .ok l) ∧
    (∀ l, b.shared = some l → ∃ f ks, .enter f ∈ history ∧ kind.shared f = .ok (l, ks)) ∧
    (∀ l, b.styles = some l → ∃ f, .enter f ∈ history ∧ kind.styles f = .ok l)) (Q := fun op => op ∈ history) ?_
    history {} (by simp) (fun _ h => h)
  intro b op hb ho
  refine step_invariant kind (P := fun b => (∀ f, b.zip = .opened f → .enter f ∈ history) ∧
    (∀ l, b.sheets = some l → ∃ f, .enter f ∈ history ∧ kind.sheets f = .ok l) ∧
    (∀ l, b.shared = some l → ∃ f ks, .enter f ∈ history ∧ kind.shared f = .ok (l, ks)) ∧
    (∀ l, b.styles = some l → ∃ f, .enter f ∈ history ∧ kind.styles f = .ok l)) b op hb ?_ ?_ ?_ ?_ ?_
  · rintro f rfl
    refine ⟨fun g hg => ?_, hb.2⟩
    simp only [ZipState.opened.injEq] at hg
    exact hg ▸ ho
  · intro _
    exact ⟨by simp, hb.2⟩
  · intro c f l _ hc _ hz hk
    refine ⟨hc.1, fun l' hl => ?_, hc.2.2⟩
    simp only [Option.some.injEq] at hl
    exact ⟨f, hc.1 f hz, hl ▸ hk⟩
  · intro c f l ks _ hc _ hz hk
    refine ⟨hc.1, hc.2.1, fun l' hl => ?_, hc.2.2.2⟩
    simp only [Option.some.injEq] at hl
    exact ⟨f, ks, hc.1 f hz, hl ▸ hk⟩
  · intro c f l _ hc _ hz hk
    refine ⟨hc.1, hc.2.1, hc.2.2.1, fun l' hl => ?_⟩
    simp only [Option.some.injEq] at hl
    exact ⟨f, hc.1 f hz, hl ▸ hk⟩

/-- C82.  Nothing is invented: whatever `sheets`, `shared` or `styles` serve is that of a file opened before. -/
theorem C82_value (kind : BookKind F T K) (history : List (BookOp F)) :
    (∀ l, Book.answer kind history .sheets = .sheets l → ∃ f, .enter f ∈ history ∧ kind.sheets f = .ok l) ∧
    (∀ l, Book.answer kind history .shared = .shared l → ∃ f ks, .enter f ∈ history ∧ kind.shared f = .ok (l, ks)) ∧
    (∀ l, Book.answer kind history .styles = .styles l → ∃ f, .enter f ∈ history ∧ kind.styles f = .ok l) := by
  have key := kept_from_file kind history
  unfold Book.answer
  generalize (Book.run kind {} history).1 = b at key ⊢
  obtain ⟨k1, k2, k3, k4⟩ := key
  refine ⟨fun l h => ?_, fun l h => ?_, fun l h => ?_⟩ <;> simp only [Book.step] at h
  · rcases getSheets_state kind b with ⟨h1, ⟨e, h2⟩ | ⟨l', h2, h3⟩⟩ | ⟨f, l', _, hz, hk, h1⟩
    · rw [h2] at h; simp [BookOut.of] at h
    · rw [h3] at h
      simp only [BookOut.of, BookOut.sheets.injEq] at h
      exact k2 l (h ▸ h2)
    · rw [h1] at h
      simp only [BookOut.of, BookOut.sheets.injEq] at h
      exact ⟨f, k1 f hz, h ▸ hk⟩
  · rcases getShared_state kind b with ⟨h1, ⟨e, h2⟩ | ⟨l', h2, h3⟩⟩ | ⟨f, l', ks, _, hz, hk, h1⟩
    · rw [h2] at h; simp [BookOut.of] at h
    · rw [h3] at h
      simp only [BookOut.of, BookOut.shared.injEq] at h
      exact k3 l (h ▸ h2)
    · rw [h1] at h
      simp only [BookOut.of, BookOut.shared.injEq] at h
      exact ⟨f, ks, k1 f hz, h ▸ hk⟩
  · rcases getStyles_state kind b with ⟨h1, ⟨e, h2⟩ | ⟨l', h2, h3⟩⟩ | ⟨f, l', _, hz, hk, h1⟩
    · rw [h2] at h; simp [BookOut.of] at h
    · rw [h3] at h
      simp only [BookOut.of, BookOut.styles.injEq] at h
      exact k4 l (h ▸ h2)
    · rw [h1] at h
      simp only [BookOut.of, BookOut.styles.injEq] at h
      exact ⟨f, k1 f hz, h ▸ hk⟩

/-- The object is closed after a closing with no opening after it. -/
theorem zip_closed (kind : BookKind F T K) (before after : List (BookOp F)) (h : ∀ f, .enter f ∉ after) :
    ∀ f, (Book.run kind {} (before ++ .exit :: after)).1.zip ≠ .opened f := by
  rw [run_append, run_cons]
  refine run_invariant kind (P := fun b => ∀ f, b.zip ≠ .opened f) (Q := fun op => ∀ f, op ≠ .enter f)
    ?_ after _ ?_ (fun op ho f e => h f (e ▸ ho))
  · intro b op hb ho
    exact step_invariant kind (P := fun b => ∀ f, b.zip ≠ .opened f) b op hb (fun f e => absurd e (ho f))
      (fun _ => by simp) (fun c _ _ _ hc _ _ _ => hc) (fun c _ _ _ _ hc _ _ _ => hc) (fun c _ _ _ hc _ _ _ => hc)
  · intro f
    simp only [Book.step]
    cases hz : (Book.run kind {} before).1.zip <;> simp [hz]

/-- C82.  A closed object delivers no cells, whatever it was asked before. -/
theorem C82_closed (kind : BookKind F T K) (before after : List (BookOp F)) (h : ∀ f, .enter f ∉ after) (a : IterArgs) :
    ∃ e, Book.answer kind (before ++ .exit :: after) (.iterate a) = .raised e := by
  have hz := zip_closed kind before after h
  unfold Book.answer
  generalize (Book.run kind {} (before ++ .exit :: after)).1 = b at hz ⊢
  simp only [Book.step, Book.iterate]
  cases hb : b.zip with
  | none => exact ⟨_, rfl⟩
  | opened f => exact absurd hb (hz f)
  | closed =>
    simp only
    have hz1 : (b.getSheets kind).1.zip = .closed := by
      rcases getSheets_state kind b with ⟨h, _⟩ | ⟨f, l, _, _, _, h⟩ <;> rw [h] <;> exact hb
    generalize b.getSheets kind = r at hz1 ⊢
    obtain ⟨b1, r1⟩ := r
    simp only at hz1
    cases r1 with
    | error e => exact ⟨_, rfl⟩
    | ok l =>
      simp only
      cases selectSheet l a.sheet with
      | error e => exact ⟨_, rfl⟩
      | ok p =>
        simp only
        cases checkRows a.skipRows a.takeRows with
        | error e => exact ⟨_, rfl⟩
        | ok q =>
          obtain ⟨s, t⟩ := q
          simp only [hz1, ZipState.file]
          exact ⟨_, rfl⟩

/-- What a closed object says to an iteration, given its answer to `sheets`. -/
def closedIter {T : Type} (a : IterArgs) : BookOut T → BookOut T
  | .sheets l =>
    match selectSheet l a.sheet, checkRows a.skipRows a.takeRows with
    | .error e, _ => .raised e
    | .ok _, .error e => .raised e
    | .ok _, .ok _ => .raised .valueError
  | _ => .raised .valueError

/-- C82.  An object that has been opened and closed serves `sheets`, `shared` and `styles` if it has them, else it
raises `ValueError`; an iteration raises `ValueError` too, unless the sheet does not exist or the numbers of rows are
wrong. -/
theorem C82_closed_exact (kind : BookKind F T K) (before after : List (BookOp F)) (h : ∀ f, .enter f ∉ after)
    (ho : ∃ f, .enter f ∈ before) :
    ((∃ l, Book.answer kind (before ++ .exit :: after) .sheets = .sheets l) ∨
      Book.answer kind (before ++ .exit :: after) .sheets = .raised .valueError) ∧
    ((∃ l, Book.answer kind (before ++ .exit :: after) .shared = .shared l) ∨
      Book.answer kind (before ++ .exit :: after) .shared = .raised .valueError) ∧
    ((∃ l, Book.answer kind (before ++ .exit :: after) .styles = .styles l) ∨
      Book.answer kind (before ++ .exit :: after) .styles = .raised .valueError) ∧
    ∀ a, Book.answer kind (before ++ .exit :: after) (.iterate a) =
      closedIter a (Book.answer kind (before ++ .exit :: after) .sheets) := by
  have hz := zip_closed kind before after h
  have hn : (Book.run kind {} (before ++ .exit :: after)).1.zip ≠ .none := by
    obtain ⟨f, hf⟩ := ho
    obtain ⟨xs, ys, rfl⟩ := List.append_of_mem hf
    rw [List.append_assoc, List.cons_append, run_append, run_cons]
    refine run_invariant kind (P := fun b => b.zip ≠ .none) (Q := fun _ => True) ?_ _ _ (by simp [Book.step]) (by simp)
    intro b op hb _
    exact step_invariant kind (P := fun b => b.zip ≠ .none) b op hb (fun _ _ => by simp) (fun _ => by simp)
      (fun c _ _ _ hc _ _ _ => hc) (fun c _ _ _ _ hc _ _ _ => hc) (fun c _ _ _ hc _ _ _ => hc)
  unfold Book.answer
  generalize (Book.run kind {} (before ++ .exit :: after)).1 = b at hz hn ⊢
  have hb : b.zip = .closed := by
    cases hq : b.zip with
    | none => exact absurd hq hn
    | opened f => exact absurd hq (hz f)
    | closed => rfl
  refine ⟨?_, ?_, ?_, fun a => ?_⟩
  · simp only [Book.step, Book.getSheets, hb, ZipState.file]
    cases b.sheets with
    | none => exact .inr rfl
    | some l => exact .inl ⟨l, rfl⟩
  · simp only [Book.step, Book.getShared, hb, ZipState.file]
    cases b.shared with
    | none => exact .inr rfl
    | some l => exact .inl ⟨l, rfl⟩
  · simp only [Book.step, Book.getStyles, hb, ZipState.file]
    cases b.styles with
    | none => exact .inr rfl
    | some l => exact .inl ⟨l, rfl⟩
  · simp only [Book.step, Book.iterate, Book.getSheets, hb, ZipState.file]
    cases b.sheets with
    | none => rfl
    | some l =>
      simp only [BookOut.of, closedIter]
      cases selectSheet l a.sheet with
      | error e => rfl
      | ok p =>
        simp only
        cases checkRows a.skipRows a.takeRows with
        | error e => rfl
        | ok r => simp only [hb]

/-- C82.  In XLSX the cells of an open file do not depend on what was done before. -/
theorem C82_xlsx_cells (toInt : Str → Option Int) (isNull : Str → Bool) (p : Package) (before after : List (BookOp Package))
    (h1 : OnlyFile p before) (h2 : OnlyFile p after) (he : .exit ∉ after) (a : IterArgs) :
    Book.answer (xlsxBook toInt isNull) (before ++ .enter p :: after) (.iterate a) =
      Book.answer (xlsxBook toInt isNull) [.enter p] (.iterate a) := by
  obtain ⟨n, _, _, _, hc⟩ := C82_cells (xlsxBook toInt isNull) p before after h1 h2 he
  obtain ⟨n', _, _, _, hc'⟩ := C82_cells (xlsxBook toInt isNull) p [] [] (by simp [OnlyFile]) (by simp [OnlyFile]) (by simp)
  rw [hc a]
  exact (hc' a).symm

/-- C82, what holds of XLSB: the cells of an open file do not depend on what was done before if no shared string of the
file is null.  Missing: files with null shared strings, where they do depend (`C82_xlsb_depends`). -/
theorem C82_xlsb_cells_partial (isNull : Str → Bool) (p : Package) (before after : List (BookOp Package))
    (h1 : OnlyFile p before) (h2 : OnlyFile p after) (he : .exit ∉ after) (a : IterArgs)
    (hn : ∀ l ks, p.xlsb.strings isNull = .ok (l, ks) → ks = []) :
    Book.answer (xlsbBook isNull) (before ++ .enter p :: after) (.iterate a) =
      Book.answer (xlsbBook isNull) [.enter p] (.iterate a) := by
  obtain ⟨n, hn1, _, _, hc⟩ := C82_cells (xlsbBook isNull) p before after h1 h2 he
  obtain ⟨n', hn2, _, _, hc'⟩ := C82_cells (xlsbBook isNull) p [] [] (by simp [OnlyFile]) (by simp [OnlyFile]) (by simp)
  have e1 : n = [] := by rcases hn1 with h | ⟨l, h⟩; exacts [h, hn l n h]
  have e2 : n' = [] := by rcases hn2 with h | ⟨l, h⟩; exacts [h, hn l n' h]
  rw [hc a, e1, ← e2]
  exact (hc' a).symm

/-- An archive with both workbook parts, whose shared string `x` can be null. -/
def exPackage : Package := ⟨[workbookXml, workbookBin], exXlsxFile, exFile⟩

/-- Another archive: the sheet is called `B`, there are other shared strings or none, and no styles. -/
def exPackage' : Package :=
  ⟨[workbookXml, workbookBin], { exXlsxFile with shared := some ⟨(exSi [['w']]).events, false⟩, styles := none }, { exFile with
    workbook := bytesOf [(⟨0, 1, ['r', '1'], ['B']⟩ : SheetEntry).record], shared := none, styles := none }⟩

/-- The number of events delivered by an answer. -/
def BookOut.size {T : Type} : BookOut T → Option Nat
  | .cells l => some l.length
  | _ => none

/-- C82 fails in XLSB: with a null shared string the same iteration over the same open file delivers other cells after
`shared` has been read. -/
theorem C82_xlsb_depends : ∃ (isNull : Str → Bool) (p : Package) (a : IterArgs),
    Book.answer (xlsbBook isNull) [.enter p, .shared] (.iterate a) ≠
      Book.answer (xlsbBook isNull) [.enter p] (.iterate a) := by
  refine ⟨(· == ['x']), exPackage, {}, fun h => ?_⟩
  have : (Book.answer (xlsbBook (· == ['x'])) [.enter exPackage, .shared] (.iterate {})).size ≠
      (Book.answer (xlsbBook (· == ['x'])) [.enter exPackage] (.iterate {})).size := by decide +kernel
  exact this (congrArg BookOut.size h)

/-- C82 fails for an object used again: after closing and opening a changed file `sheets` are still those of the first,
in both formats. -/
theorem C82_stale : (∃ (isNull : Str → Bool) (p q : Package) (l m : List (Str × Str)),
      (xlsbBook isNull).sheets q = .ok m ∧ m ≠ l ∧
      Book.answer (xlsbBook isNull) [.enter p, .sheets, .exit, .enter q] .sheets = .sheets l) ∧
    ∃ (toInt : Str → Option Int) (isNull : Str → Bool) (p q : Package) (l m : List (Option Str)) (ks : List Str),
      (xlsxBook toInt isNull).shared q = .ok (m, ks) ∧ m ≠ l ∧
      Book.answer (xlsxBook toInt isNull) [.enter p, .shared, .exit, .enter q] .shared = .shared l :=
  ⟨⟨(· == ['x']), exPackage, exPackage', [(['A'], "xl/s1".toList)], [(['B'], "xl/s1".toList)],
    by decide +kernel, by decide, by decide +kernel⟩,
    ⟨exInt, (· == ['-']), exPackage, exPackage', [some ['x'], some ['y', 'z']], [some ['w']], [], by decide +kernel, by decide,
      by decide +kernel⟩⟩

/-- C82 fails for a file that is no workbook: `__enter__` raises AssertionError and `__exit__` is not called, but the
object stays open and serves what it finds. -/
theorem C82_failed_enter (kind : BookKind F T K) (f : F) (h : kind.isBook f = false) :
    Book.answer kind [] (.enter f) = .raised .assertionError ∧
    Book.answer kind [.enter f] .sheets = .of .sheets (kind.sheets f) :=
  ⟨by simp [Book.answer, Book.run, Book.step, h], (C82_while_open kind f [] [] (by simp [OnlyFile]) (by simp [OnlyFile])
    (by simp)).1⟩

/-- C82, opening: an object for XLSX files opens without an error exactly the archives with a part `xl/workbook.xml`, one
for XLSB files exactly those with a part `xl/workbook.bin`, whatever happened to the object before. -/
theorem C82_opens (toInt : Str → Option Int) (isNull : Str → Bool) (p : Package) :
    (∀ h, Book.answer (xlsxBook toInt isNull) h (.enter p) =
      if "xl/workbook.xml".toList ∈ p.names then .done else .raised .assertionError) ∧
    ∀ h, Book.answer (xlsbBook isNull) h (.enter p) =
      if "xl/workbook.bin".toList ∈ p.names then .done else .raised .assertionError := by
  have hx : workbookXml = "xl/workbook.xml".toList := by decide
  have hb : workbookBin = "xl/workbook.bin".toList := by decide
  refine ⟨fun h => ?_, fun h => ?_⟩
  · rw [← hx]; simp [Book.answer, Book.step, xlsxBook]
  · rw [← hb]; simp [Book.answer, Book.step, xlsbBook]

/-- Answers while open, after closing, and after opening the other file. -/
example :
    (Book.run (xlsbBook (· == ['x'])) {} [.sheets, .enter exPackage, .shared, .sheets, .exit, .sheets, .styles, .shared,
      .enter exPackage', .sheets, .shared, .styles, .enter exPackage, .styles]).2 =
    [.raised .runtimeError, .done, .shared [some ['x'], some ['y', 'z']], .sheets [(['A'], "xl/s1".toList)], .done,
      .sheets [(['A'], "xl/s1".toList)], .raised .valueError, .shared [some ['x'], some ['y', 'z']], .done,
      .sheets [(['A'], "xl/s1".toList)], .shared [some ['x'], some ['y', 'z']], .raised .keyError, .done,
      .styles [[1, 0, 0]]] := by
  decide +kernel

example :
    (Book.run (xlsxBook exInt (· == ['-'])) {} [.iterate {}, .enter exPackage, .iterate {}, .shared, .iterate {},
      .iterate { skipRows := -1 }, .iterate { sheet := .index 3 }, .exit, .iterate {}]).2.map (·.size) =
    [none, none, some 10, none, some 10, none, none, none, none] := by
  decide +kernel

end Rxls
