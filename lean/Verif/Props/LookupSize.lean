import Verif.Spec.LookupSize
import Verif.Props.TakeRows
import Verif.Props.DataStart

/-! # C139: looking for the header in more rows -/

namespace Rxls

/-- The window of more rows begins with the window of fewer. -/
theorem window_prefix {α : Type} (col : List (Option α)) {n m : Nat} (h : n ≤ m) :
    window col 0 m = window col 0 n ++ window col n (m - n) := by
  unfold window
  obtain ⟨d, rfl⟩ := Nat.exists_eq_add_of_le h
  rw [List.range_add, List.map_append, List.map_map]
  congr 1
  simp

theorem findIdx_more {α : Type} {p : α → Bool} {l l' : List α} {i : Nat} (h : l.findIdx? p = some i) :
    (l ++ l').findIdx? p = some i := by
  rw [List.findIdx?_append, h]
  rfl

/-- C139 for a column number. -/
theorem lookupRow_column {env : Env} {o : ConcatOpts} {values : Int → List (Option Val)} {keys : List Int}
    {search : Str → Option (Str → Bool)} {lk : Lookup} (hlk : ∀ p, lk ≠ .pattern p) {size size' row : Nat} (hs : size ≤ size')
    (h : lookupRow env o values keys size search lk = .ok (some row)) :
    lookupRow env o values keys size' search lk = .ok (some row) := by
  cases lk with
  | none => exact h
  | pattern p => exact absurd rfl (hlk p)
  | column k =>
    unfold lookupRow at h ⊢
    simp only at h ⊢
    split at h
    · rename_i hk
      rw [if_pos hk, window_prefix _ hs, findIdx_more (Except.ok.inj h)]
    · cases h

/-- C139 for a pattern. -/
theorem lookupRow_pattern {env : Env} {o : ConcatOpts} {V : VGrid}
    {search : Str → Option (Str → Bool)} {p : Str} {f : Str → Bool} (hf : search p = some f) {size size' : Nat}
    (hs : size ≤ size') (hset : V.Settled f size size') :
    lookupRow env o V.column V.seen size' search (.pattern p) = lookupRow env o V.column V.seen size search (.pattern p) := by
  unfold lookupRow
  simp only [hf]
  congr 1
  have key : ∀ ks : List Int, (∀ k ∈ ks, k ∈ V.seen) →
      (ks.findSome? fun k => (headTexts env o (window (V.column k) 0 size')).findIdx? (Option.any f)) =
      ks.findSome? fun k => (headTexts env o (window (V.column k) 0 size)).findIdx? (Option.any f) := by
    intro ks
    induction ks with
    | nil => intro _; rfl
    | cons k ks ih =>
      intro hk
      have hk0 := hset k (hk k (by simp))
      have texts : ∀ n ≤ size', fetched env o (window (V.column k) 0 n) = ⟨.utf8, window (V.column k) 0 n⟩ := by
        intro n hn
        apply fetched_texts
        intro v hv
        unfold window at hv
        obtain ⟨i, hi, e⟩ := List.mem_map.mp hv
        obtain ⟨s, e1, _⟩ := hk0 i (by have := List.mem_range.mp hi; omega) v (by simpa using e)
        exact ⟨s, e1⟩
      have e : (headTexts env o (window (V.column k) 0 size')).findIdx? (Option.any f) =
          (headTexts env o (window (V.column k) 0 size)).findIdx? (Option.any f) := by
        unfold headTexts
        rw [texts _ (le_refl _), texts _ hs, window_prefix _ hs]
        simp only [List.map_append, List.findIdx?_append]
        have : ((window (V.column k) size (size' - size)).map (Option.map (cellText env))).findIdx? (Option.any f) = none := by
          rw [List.findIdx?_eq_none_iff]
          intro x hx
          obtain ⟨y, hy, rfl⟩ := List.mem_map.mp hx
          unfold window at hy
          obtain ⟨i, hi, e⟩ := List.mem_map.mp hy
          cases y with
          | none => rfl
          | some v =>
            obtain ⟨s, rfl, h2⟩ := hk0 (size + i) (by have := List.mem_range.mp hi; omega) v e
            simpa [cellText] using h2 (by omega)
        rw [this]
        simp
      rw [List.findSome?_cons, List.findSome?_cons, e, ih fun x hx => hk x (by simp [hx])]
  exact key _ fun _ h => h

/-- The size of the window matters for the row found only. -/
theorem table_lookupSize {A D : Type} (env : Env) (lib : Lib A D) (search : Str → Option (Str → Bool))
    (reMatch : Str → Str → Py Bool) (args : ReadArgs D) (o : ConcatOpts) (V : VGrid) (size' : Int)
    (h : lookupRow env o V.column V.seen size'.toNat search args.lookup =
      lookupRow env o V.column V.seen args.lookupSize.toNat search args.lookup) :
    V.table env lib search reMatch { args with lookupSize := size' } o = V.table env lib search reMatch args o := by
  unfold VGrid.table sheetTable
  simp only [h]

theorem lookupSize_xlsx {A D : Type} (env : Env) (lib : Lib A D) (search : Str → Option (Str → Bool))
    (reMatch : Str → Str → Py Bool) (toInt : Str → Option Int) (a : FileArgs D) (k t : Nat)
    (hk : a.iter.skipRows = k) (ht : a.iter.takeRows = t) (ha : a.table.Sensible) (p : Package)
    (hp : workbookXml ∈ p.names) (isNull : Str → Bool) (hnull : ∀ s, isNull s = (decide (s ∈ errorTexts) || a.nulls.asks s))
    (o : ConcatOpts) (ho : o = concatOpts a.conflict a.formats a.precision)
    (formats : List StyleClass) (shared : List Str) (g : TGrid)
    (h : p.xlsx.Holds env toInt a.iter.sheet isNull formats shared g) (V : VGrid)
    (hV : V = (g.values env isNull formats shared).shownXlsx k t a.iter.keepEmpty a.iter.skipCols)
    (hres : V.Resolvable env o g.inline) (hdata : V.flatten ≠ [] → V.HasData env search a.table o)
    (size' : Int) (hs : a.table.lookupSize ≤ size')
    (hrow : lookupRow env o V.column V.seen size'.toNat search a.table.lookup =
      lookupRow env o V.column V.seen a.table.lookupSize.toNat search a.table.lookup) :
    readFile env lib search reMatch toInt { a with table.lookupSize := size' } p = readFile env lib search reMatch toInt a p := by
  rw [C69_xlsx env lib search reMatch toInt a k t hk ht ha p hp isNull hnull o ho formats shared g h V hV hres hdata,
    C69_xlsx env lib search reMatch toInt { a with table.lookupSize := size' } k t hk ht
      ⟨lt_of_lt_of_le ha.lookup hs, ha.header⟩ p hp isNull hnull o ho formats shared g h V hV hres (by
        intro hne r hr
        simp only at hr
        rw [hrow] at hr
        exact hdata hne r hr)]
  simp only
  rw [table_lookupSize env lib search reMatch a.table o V size' hrow]

theorem lookupSize_xlsb {A D : Type} (env : Env) (lib : Lib A D) (search : Str → Option (Str → Bool))
    (reMatch : Str → Str → Py Bool) (toInt : Str → Option Int) (a : FileArgs D) (k t : Nat)
    (hk : a.iter.skipRows = k) (ht : a.iter.takeRows = t) (ha : a.table.Sensible) (p : Package)
    (hp : workbookXml ∉ p.names) (hb : workbookBin ∈ p.names)
    (o : ConcatOpts) (ho : o = concatOpts a.conflict a.formats a.precision)
    (temporal : List Bytes) (shared : List Str) (g : Grid)
    (h : p.xlsb.Holds a.iter.sheet a.nulls.asks temporal shared g) (V : VGrid)
    (hV : V = (g.values temporal shared a.nulls.asks).shownXlsb k t a.iter.keepEmpty a.iter.skipCols)
    (hres : V.Resolvable env o g.inline) (hdata : V.flatten ≠ [] → V.HasData env search a.table o)
    (size' : Int) (hs : a.table.lookupSize ≤ size')
    (hrow : lookupRow env o V.column V.seen size'.toNat search a.table.lookup =
      lookupRow env o V.column V.seen a.table.lookupSize.toNat search a.table.lookup) :
    readFile env lib search reMatch toInt { a with table.lookupSize := size' } p = readFile env lib search reMatch toInt a p := by
  rw [C69_xlsb env lib search reMatch toInt a k t hk ht ha p hp hb o ho temporal shared g h V hV hres hdata,
    C69_xlsb env lib search reMatch toInt { a with table.lookupSize := size' } k t hk ht
      ⟨lt_of_lt_of_le ha.lookup hs, ha.header⟩ p hp hb o ho temporal shared g h V hV hres (by
        intro hne r hr
        simp only at hr
        rw [hrow] at hr
        exact hdata hne r hr)]
  simp only
  rw [table_lookupSize env lib search reMatch a.table o V size' hrow]

/-- **C139** (XLSX).  A header found in a given column within `lookup_size` rows is the one found within more rows: the
table is the same. -/
theorem C139_column_xlsx {A D : Type} (env : Env) (lib : Lib A D) (search : Str → Option (Str → Bool))
    (reMatch : Str → Str → Py Bool) (toInt : Str → Option Int) (a : FileArgs D) (k t : Nat)
    (hk : a.iter.skipRows = k) (ht : a.iter.takeRows = t) (ha : a.table.Sensible) (p : Package)
    (hp : workbookXml ∈ p.names) (isNull : Str → Bool) (hnull : ∀ s, isNull s = (decide (s ∈ errorTexts) || a.nulls.asks s))
    (o : ConcatOpts) (ho : o = concatOpts a.conflict a.formats a.precision)
    (formats : List StyleClass) (shared : List Str) (g : TGrid)
    (h : p.xlsx.Holds env toInt a.iter.sheet isNull formats shared g) (V : VGrid)
    (hV : V = (g.values env isNull formats shared).shownXlsx k t a.iter.keepEmpty a.iter.skipCols)
    (hres : V.Resolvable env o g.inline) (hdata : V.flatten ≠ [] → V.HasData env search a.table o)
    (hlk : ∀ p, a.table.lookup ≠ .pattern p) (row : Nat)
    (hrow : lookupRow env o V.column V.seen a.table.lookupSize.toNat search a.table.lookup = .ok (some row))
    (size' : Int) (hs : a.table.lookupSize ≤ size') :
    readFile env lib search reMatch toInt { a with table.lookupSize := size' } p = readFile env lib search reMatch toInt a p :=
  lookupSize_xlsx env lib search reMatch toInt a k t hk ht ha p hp isNull hnull o ho formats shared g h V hV hres hdata size' hs
    (by rw [hrow, lookupRow_column hlk (Int.toNat_le_toNat hs) hrow])

/-- **C139** (XLSX), partial.  The same for a pattern, if the rows looked through hold texts only and no text in the
additional rows matches.  What is missing is shown in `C139_finding`. -/
theorem C139_pattern_xlsx_partial {A D : Type} (env : Env) (lib : Lib A D) (search : Str → Option (Str → Bool))
    (reMatch : Str → Str → Py Bool) (toInt : Str → Option Int) (a : FileArgs D) (k t : Nat)
    (hk : a.iter.skipRows = k) (ht : a.iter.takeRows = t) (ha : a.table.Sensible) (p : Package)
    (hp : workbookXml ∈ p.names) (isNull : Str → Bool) (hnull : ∀ s, isNull s = (decide (s ∈ errorTexts) || a.nulls.asks s))
    (o : ConcatOpts) (ho : o = concatOpts a.conflict a.formats a.precision)
    (formats : List StyleClass) (shared : List Str) (g : TGrid)
    (h : p.xlsx.Holds env toInt a.iter.sheet isNull formats shared g) (V : VGrid)
    (hV : V = (g.values env isNull formats shared).shownXlsx k t a.iter.keepEmpty a.iter.skipCols)
    (hres : V.Resolvable env o g.inline) (hdata : V.flatten ≠ [] → V.HasData env search a.table o)
    (q : Str) (f : Str → Bool) (hlk : a.table.lookup = .pattern q) (hf : search q = some f)
    (size' : Int) (hs : a.table.lookupSize ≤ size') (hset : V.Settled f a.table.lookupSize.toNat size'.toNat) :
    readFile env lib search reMatch toInt { a with table.lookupSize := size' } p = readFile env lib search reMatch toInt a p :=
  lookupSize_xlsx env lib search reMatch toInt a k t hk ht ha p hp isNull hnull o ho formats shared g h V hV hres hdata size' hs
    (by rw [hlk]; exact lookupRow_pattern hf (Int.toNat_le_toNat hs) hset)

/-- **C139** (XLSB).  A header found in a given column within `lookup_size` rows is the one found within more rows: the
table is the same. -/
theorem C139_column_xlsb {A D : Type} (env : Env) (lib : Lib A D) (search : Str → Option (Str → Bool))
    (reMatch : Str → Str → Py Bool) (toInt : Str → Option Int) (a : FileArgs D) (k t : Nat)
    (hk : a.iter.skipRows = k) (ht : a.iter.takeRows = t) (ha : a.table.Sensible) (p : Package)
    (hp : workbookXml ∉ p.names) (hb : workbookBin ∈ p.names)
    (o : ConcatOpts) (ho : o = concatOpts a.conflict a.formats a.precision)
    (temporal : List Bytes) (shared : List Str) (g : Grid)
    (h : p.xlsb.Holds a.iter.sheet a.nulls.asks temporal shared g) (V : VGrid)
    (hV : V = (g.values temporal shared a.nulls.asks).shownXlsb k t a.iter.keepEmpty a.iter.skipCols)
    (hres : V.Resolvable env o g.inline) (hdata : V.flatten ≠ [] → V.HasData env search a.table o)
    (hlk : ∀ p, a.table.lookup ≠ .pattern p) (row : Nat)
    (hrow : lookupRow env o V.column V.seen a.table.lookupSize.toNat search a.table.lookup = .ok (some row))
    (size' : Int) (hs : a.table.lookupSize ≤ size') :
    readFile env lib search reMatch toInt { a with table.lookupSize := size' } p = readFile env lib search reMatch toInt a p :=
  lookupSize_xlsb env lib search reMatch toInt a k t hk ht ha p hp hb o ho temporal shared g h V hV hres hdata size' hs
    (by rw [hrow, lookupRow_column hlk (Int.toNat_le_toNat hs) hrow])

/-- **C139** (XLSB), partial.  The same for a pattern, if the rows looked through hold texts only and no text in the
additional rows matches.  What is missing is shown in `C139_finding`. -/
theorem C139_pattern_xlsb_partial {A D : Type} (env : Env) (lib : Lib A D) (search : Str → Option (Str → Bool))
    (reMatch : Str → Str → Py Bool) (toInt : Str → Option Int) (a : FileArgs D) (k t : Nat)
    (hk : a.iter.skipRows = k) (ht : a.iter.takeRows = t) (ha : a.table.Sensible) (p : Package)
    (hp : workbookXml ∉ p.names) (hb : workbookBin ∈ p.names)
    (o : ConcatOpts) (ho : o = concatOpts a.conflict a.formats a.precision)
    (temporal : List Bytes) (shared : List Str) (g : Grid)
    (h : p.xlsb.Holds a.iter.sheet a.nulls.asks temporal shared g) (V : VGrid)
    (hV : V = (g.values temporal shared a.nulls.asks).shownXlsb k t a.iter.keepEmpty a.iter.skipCols)
    (hres : V.Resolvable env o g.inline) (hdata : V.flatten ≠ [] → V.HasData env search a.table o)
    (q : Str) (f : Str → Bool) (hlk : a.table.lookup = .pattern q) (hf : search q = some f)
    (size' : Int) (hs : a.table.lookupSize ≤ size') (hset : V.Settled f a.table.lookupSize.toNat size'.toNat) :
    readFile env lib search reMatch toInt { a with table.lookupSize := size' } p = readFile env lib search reMatch toInt a p :=
  lookupSize_xlsb env lib search reMatch toInt a k t hk ht ha p hp hb o ho temporal shared g h V hV hres hdata size' hs
    (by rw [hlk]; exact lookupRow_pattern hf (Int.toNat_le_toNat hs) hset)

/-! ## Examples and findings -/

/-- What `read` gives for a sheet with one header row, looked for in this way. -/
def exLookupRead (g : TGrid) (lookup : Lookup) (size : Int) : Py (Table Fetched) :=
  let sheet : XSheet := ⟨[], g.map fun row => ⟨[], row.map TCell.xml⟩, []⟩
  readFile textEnv exLib (fun p => some fun s => s = p) (fun _ _ => .ok false) exInt
    { table := { header := .rows 1, lookup := lookup, lookupSize := size } }
    ⟨[workbookXml], { exXlsxFile with parts := fun _ => some ⟨sheet.events, false⟩ }, exFile⟩

/-- A text in a cell. -/
def exLookupText (c r : Nat) (s : Str) : TCell := ⟨c, [(49 + r).toUInt8], none, .plain s, [], []⟩

/-- A header `n`, `k` and data below it; the data have a `k`, too. -/
def exLookupGrid : TGrid :=
  [[exLookupText 0 0 ['n'], exLookupText 1 0 ['k']], [exLookupText 0 1 ['a'], exLookupText 1 1 ['b']],
    [exLookupText 0 2 ['k'], exLookupText 1 2 ['d']], [exLookupText 0 3 ['e'], exLookupText 1 3 ['f']]]

/-- Looking in one column, one row is as good as ten. -/
example : exLookupRead exLookupGrid (.column 0) 1 = exLookupRead exLookupGrid (.column 0) 10 ∧
    exLookupRead exLookupGrid (.column 0) 1 = exLookupRead exLookupGrid (.pattern ['k']) 2 ∧
    exLookupRead exLookupGrid (.pattern ['k']) 1 = exLookupRead exLookupGrid (.pattern ['k']) 2 := by decide +kernel

/-- **C139**, finding: with two rows to look through the header with `k` is found in row 0; with three rows another `k`
is found in row 2, because it stands in an earlier column: rows are lost, and data become names. -/
theorem C139_finding : exLookupRead exLookupGrid (.pattern ['k']) 2 = .ok ⟨[['n'], ['k']],
      [.arr ⟨.utf8, [some (.str ['a']), some (.str ['k']), some (.str ['e'])]⟩,
        .arr ⟨.utf8, [some (.str ['b']), some (.str ['d']), some (.str ['f'])]⟩]⟩ ∧
    exLookupRead exLookupGrid (.pattern ['k']) 3 = .ok ⟨[['k'], ['d']],
      [.arr ⟨.utf8, [some (.str ['e'])]⟩, .arr ⟨.utf8, [some (.str ['f'])]⟩]⟩ := by decide +kernel

end Rxls
