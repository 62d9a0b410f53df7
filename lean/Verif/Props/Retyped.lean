import Verif.Spec.Retyped
import Verif.Lemmas.ColumnCount
import Verif.Props.Table
import Verif.Props.Renamed

/-! # C134: `dtypes` retypes the columns of the table and changes nothing else -/

namespace Rxls

/-- Arrays that have the lengths of others, position by position, fit together just when those do. -/
theorem makeTable_lens {A D : Type} (lib : Lib A D) (names : List Str) {as bs : List A}
    (h : bs.map lib.len = as.map lib.len) :
    makeTable lib names bs = match makeTable lib names as with
      | .ok _ => .ok ⟨names, bs⟩
      | .error e => .error e := by
  have hl : bs.length = as.length := by simpa using congrArg List.length h
  have hall : ∀ l : List A, (l.all fun a => l.all fun b => lib.len a == lib.len b) =
      ((l.map lib.len).all fun a => (l.map lib.len).all fun b => a == b) := by
    intro l
    simp [List.all_map, Function.comp_def]
  unfold makeTable
  rw [hall bs, hall as, h, hl]
  split
  · rfl
  · split
    · rfl
    · rfl

/-- From arrays on. -/
theorem retypes_arrays {A D : Type} (lib : Lib A D) (hk : lib.Lawful) (names : List Str) (arrays : List A)
    (hl : arrays.length = names.length) (arg : DtypesArg D) :
    Retypes lib arg (makeTable lib names arrays) (match applyDtypes lib names arrays arg with
      | .error e => .error e
      | .ok r => makeTable lib names r) := by
  have hmk : ∀ T, makeTable lib names arrays = .ok T → T = ⟨names, arrays⟩ := by
    intro T hT
    obtain ⟨h1, h2, _⟩ := makeTable_inv hT
    cases T
    simp_all
  by_cases hs : ∀ l, arg = .sequence l → l.length = names.length
  · by_cases hc : ∃ j, ∃ hj : j < arrays.length, retyped lib arrays[j] (wantedType names j arg) = none
    · obtain ⟨j, hj, hn⟩ := hc
      rw [C61_failing_cast lib names arrays hl arg hs j hj hn]
      cases hT : makeTable lib names arrays with
      | error e => trivial
      | ok T =>
        obtain rfl := hmk T hT
        exact ⟨rfl, .inr ⟨j, hj, hn⟩⟩
    · have hc' : ∀ j, (hj : j < arrays.length) → (retyped lib arrays[j] (wantedType names j arg)).isSome := by
        intro j hj
        rw [Option.isSome_iff_ne_none]
        exact fun hn => hc ⟨j, hj, hn⟩
      obtain ⟨r, hr⟩ := C61_succeeds lib names arrays hl arg hs hc'
      obtain ⟨hlen, hget⟩ := C61_applied lib names arrays r hl arg hr
      have hlens : r.map lib.len = arrays.map lib.len := by
        apply List.ext_getElem (by simpa using hlen)
        intro j h1 h2
        have hj : j < arrays.length := by simpa using h2
        have hj' : j < r.length := by omega
        have := hget j hj
        rw [List.getElem?_eq_getElem hj'] at this
        simpa using retyped_len hk this
      simp only [hr]
      rw [makeTable_lens lib names hlens]
      cases hT : makeTable lib names arrays with
      | error e => trivial
      | ok T =>
        obtain rfl := hmk T hT
        exact ⟨rfl, hs, hlen, hget⟩
  · have ⟨l, hl1, hl2⟩ : ∃ l, arg = .sequence l ∧ l.length ≠ names.length := by simpa using hs
    rw [hl1, C61_length lib names arrays l hl2]
    cases hT : makeTable lib names arrays with
    | error e => trivial
    | ok T =>
      obtain rfl := hmk T hT
      exact ⟨rfl, .inl ⟨l, rfl, hl2⟩⟩

theorem C134_columns {A D : Type} (env : Env) (lib : Lib A D) (hk : lib.Lawful) (search : Str → Option (Str → Bool))
    (reMatch : Str → Str → Py Bool) (args : ReadArgs D) (arg : DtypesArg D) (cols : Cols) :
    Retypes lib arg (readColumns env lib search reMatch { args with dtypes := .none } cols)
      (readColumns env lib search reMatch { args with dtypes := arg } cols) := by
  unfold readColumns
  simp only
  cases maxLen cols with
  | error e => trivial
  | ok m =>
    simp only
    cases findHeader env search cols args.lookupSize args.lookup with
    | error e => trivial
    | ok x =>
      obtain ⟨cs, row⟩ := x
      simp only
      by_cases hr : row = -1
      · rw [if_pos hr, if_pos hr]
        trivial
      rw [if_neg hr, if_neg hr]
      cases hh : headerOf env cs row args.header with
      | error e => trivial
      | ok y =>
        obtain ⟨cs1, height, names⟩ := y
        simp only
        cases filterKeys reMatch names (sortedKeys cs1) args.filters with
        | error e => trivial
        | ok fs =>
          simp only
          cases hm : rowMask env cs1 fs args.strategy (height + row + args.skipAfter) (m - row - height - args.skipAfter) with
          | error e => trivial
          | ok z =>
            obtain ⟨cs2, mask⟩ := z
            simp only
            cases ho : onColumns (fetchWith env (height + row + args.skipAfter) (m - row - height - args.skipAfter) mask) cs2
                (sortedKeys cs2) with
            | error e => trivial
            | ok w =>
              obtain ⟨cs3, fetched⟩ := w
              simp only
              apply retypes_arrays lib hk
              rw [List.length_map, (onColumns_count _ ho).2, sortedKeys_count, rowMask_count hm, (headerOf_count hh).1,
                (headerOf_count hh).2]

theorem C134_cells {A D : Type} (env : Env) (lib : Lib A D) (hk : lib.Lawful) (search : Str → Option (Str → Bool))
    (reMatch : Str → Str → Py Bool) (args : ReadArgs D) (arg : DtypesArg D) (fresh : Series) (cells : List Cell) :
    Retypes lib arg (readCells env lib search reMatch { args with dtypes := .none } fresh cells)
      (readCells env lib search reMatch { args with dtypes := arg } fresh cells) := by
  unfold readCells
  cases collect env fresh [] cells with
  | error e => trivial
  | ok cols => exact C134_columns env lib hk search reMatch args arg cols

/-- **C134**.  With `dtypes`, a file is read as without, and then each column that a type is asked for gets this type: the
names, the number of columns and the rows stay.  The read is a ValueError if a list of types has the wrong length or a column
cannot have its type.  This holds for every file and all other arguments. -/
theorem C134_dtypes {A D : Type} (env : Env) (lib : Lib A D) (hk : lib.Lawful) (search : Str → Option (Str → Bool))
    (reMatch : Str → Str → Py Bool) (toInt : Str → Option Int) (a : FileArgs D) (arg : DtypesArg D) (p : Package) :
    Retypes lib arg (readFile env lib search reMatch toInt { a with table.dtypes := .none } p)
      (readFile env lib search reMatch toInt { a with table.dtypes := arg } p) :=
  readFile_rel env lib search reMatch toInt a { a.table with dtypes := .none } { a.table with dtypes := arg } (Retypes lib arg)
    (fun _ => trivial) (fun fresh cells => C134_cells env lib hk search reMatch a.table arg fresh cells) p

/-! ## Examples -/

/-- What `read` gives for the sheet of C129 under two names, with these types. -/
def exRetypedRead (dtypes : DtypesArg DType) : Py (Table Fetched) :=
  let sheet : XSheet := ⟨[], exNullGrid.map fun row => ⟨[], row.map TCell.xml⟩, []⟩
  readFile textEnv exLib (fun _ => none) (fun _ _ => .ok false) exInt
    { nulls := .values [['-']], table := { header := .names [['p'], ['q']], filters := .positions [0], dtypes := dtypes } }
    ⟨[workbookXml], { exXlsxFile with parts := fun _ => some ⟨sheet.events, false⟩ }, exFile⟩

/-- No types; a type for one name; a list with the types they have; a list that is too long; a cast that fails. -/
example : exRetypedRead .none = .ok ⟨[['p'], ['q']],
      [.arr ⟨.i8, [some (.i8 1), some (.i8 2)]⟩, .arr ⟨.utf8, [none, none]⟩]⟩ ∧
    exRetypedRead (.mapping [(['x'], .f8), (['p'], .utf8)]) = .ok ⟨[['p'], ['q']],
      [.arr ⟨.utf8, [some (.str ['1']), some (.str ['2'])]⟩, .arr ⟨.utf8, [none, none]⟩]⟩ ∧
    exRetypedRead (.sequence [.i8, .utf8]) = exRetypedRead .none ∧
    exRetypedRead (.sequence [.i8, .utf8, .utf8]) = .error .valueError ∧
    exRetypedRead (.single .f8) = .error .valueError := by decide +kernel

end Rxls
