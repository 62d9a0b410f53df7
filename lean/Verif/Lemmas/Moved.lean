import Verif.Spec.Moved
import Mathlib.Data.List.Sort
import Mathlib.Order.Monotone.Basic

/-! # The table does not depend on the numbers of the columns, only on their order -/

namespace Rxls

variable {f : Int → Int}

def Cell.move (f : Int → Int) (c : Cell) : Cell := { c with col := f c.col }

def moveCols (f : Int → Int) (cols : Cols) : Cols := cols.map fun p => (f p.1, p.2)

theorem find_move (hf : StrictMono f) (cols : Cols) (k : Int) :
    ((moveCols f cols).find? fun p => p.1 = f k) = (cols.find? fun p => p.1 = k).map fun p => (f p.1, p.2) := by
  induction cols with
  | nil => rfl
  | cons p cols ih =>
    simp only [moveCols, List.map_cons, List.find?_cons, hf.injective.eq_iff] at ih ⊢
    by_cases h : p.1 = k
    · simp [h]
    · simpa [h] using ih

theorem set_move (hf : StrictMono f) (cols : Cols) (k : Int) (s : Series) :
    ((moveCols f cols).map fun q => if q.1 = f k then (q.1, s) else q) =
      moveCols f (cols.map fun q => if q.1 = k then (q.1, s) else q) := by
  simp only [moveCols, List.map_map]
  apply List.map_congr_left
  intro q _
  simp only [Function.comp_apply, hf.injective.eq_iff]
  by_cases h : q.1 = k <;> simp [h]

theorem addCell_move (hf : StrictMono f) (env : Env) (fresh : Series) (cols : Cols) (c : Cell) :
    addCell env fresh (moveCols f cols) (c.move f) = (addCell env fresh cols c).map (moveCols f) := by
  have ha : ∀ s : Series, s.add env (c.move f) = s.add env c := fun s => rfl
  unfold addCell
  rw [show (c.move f).col = f c.col from rfl, find_move hf]
  cases cols.find? fun p => p.1 = c.col with
  | none =>
    simp only [Option.map_none, ha]
    cases fresh.add env c with
    | error e => rfl
    | ok s => simp [Except.map, moveCols]
  | some p =>
    simp only [Option.map_some, ha]
    cases p.2.add env c with
    | error e => rfl
    | ok s => simp only [set_move hf, Except.map]

theorem collect_move (hf : StrictMono f) (env : Env) (fresh : Series) (cs : List Cell) : ∀ cols : Cols,
    collect env fresh (moveCols f cols) (cs.map (Cell.move f)) = (collect env fresh cols cs).map (moveCols f) := by
  induction cs with
  | nil => intro cols; rfl
  | cons c cs ih =>
    intro cols
    simp only [List.map_cons, collect, addCell_move hf]
    cases addCell env fresh cols c with
    | error e => rfl
    | ok cols => exact ih cols

theorem maxLen_move (cols : Cols) : maxLen (moveCols f cols) = maxLen cols := by
  cases cols with
  | nil => rfl
  | cons p ps => simp [maxLen, moveCols, List.foldl_map]

theorem sortedKeys_move (hf : StrictMono f) (cols : Cols) : sortedKeys (moveCols f cols) = (sortedKeys cols).map f := by
  unfold sortedKeys
  rw [List.map_insertionSort _ (· ≤ ·) f _ fun a _ b _ => hf.le_iff_le.symm]
  simp only [moveCols, List.map_map]
  rfl

theorem onColumn_move (hf : StrictMono f) {α : Type} (cols : Cols) (k : Int) (g : Series → Series × Py α) :
    onColumn (moveCols f cols) (f k) g = (onColumn cols k g).map fun r => (moveCols f r.1, r.2) := by
  unfold onColumn
  rw [find_move hf]
  cases cols.find? fun p => p.1 = k with
  | none => rfl
  | some p =>
    simp only [Option.map_some]
    rcases hg : g p.2 with ⟨s, _ | a⟩
    · rfl
    · simp only [set_move hf, Except.map]

theorem onColumns_move (hf : StrictMono f) {α : Type} (g : Series → Series × Py α) (ks : List Int) : ∀ cols : Cols,
    onColumns g (moveCols f cols) (ks.map f) = (onColumns g cols ks).map fun r => (moveCols f r.1, r.2) := by
  induction ks with
  | nil => intro cols; rfl
  | cons k ks ih =>
    intro cols
    simp only [List.map_cons, onColumns, onColumn_move hf]
    cases onColumn cols k g with
    | error e => rfl
    | ok r =>
      simp only [Except.map, ih]
      cases onColumns g r.1 ks with
      | error e => rfl
      | ok r => rfl

theorem findPattern_move (hf : StrictMono f) (env : Env) (search : Str → Bool) (size : Int) (ks : List Int) :
    ∀ cols : Cols, findPattern env search size (moveCols f cols) (ks.map f) =
      (findPattern env search size cols ks).map fun r => (moveCols f r.1, r.2) := by
  induction ks with
  | nil => intro cols; rfl
  | cons k ks ih =>
    intro cols
    simp only [List.map_cons, findPattern, onColumn_move hf]
    cases onColumn cols k (textsOf env 0 size) with
    | error e => rfl
    | ok r =>
      simp only [Except.map]
      cases List.findIdx? (Option.any search) r.2 with
      | none => exact ih r.1
      | some i => rfl

theorem findHeader_move (hf : StrictMono f) (env : Env) (search : Str → Option (Str → Bool)) (cols : Cols) (size : Int)
    (l : Lookup) : findHeader env search (moveCols f cols) size (l.move f) =
      (findHeader env search cols size l).map fun r => (moveCols f r.1, r.2) := by
  cases l with
  | none => rfl
  | column k =>
    simp only [Lookup.move, findHeader, onColumn_move hf]
    cases onColumn cols k (textsOf env 0 size) with
    | error e => rfl
    | ok r =>
      simp only [Except.map]
      cases List.findIdx? Option.isSome r.2 <;> rfl
  | pattern p =>
    simp only [Lookup.move, findHeader]
    cases search p with
    | none => rfl
    | some g =>
      simp only
      rw [show (moveCols f cols).map (·.1) = (cols.map (·.1)).map f by simp [moveCols], findPattern_move hf]

theorem makeHeader_move (hf : StrictMono f) (env : Env) (cols : Cols) (row n : Int) :
    makeHeader env (moveCols f cols) row n = (makeHeader env cols row n).map fun r => (moveCols f r.1, r.2) := by
  unfold makeHeader
  rw [sortedKeys_move hf, onColumns_move hf, onColumns_move hf]
  split
  · cases onColumns (firstText env row) cols (sortedKeys cols) <;> rfl
  · cases onColumns (textsOf env row n) cols (sortedKeys cols) <;> rfl

theorem headerOf_move (hf : StrictMono f) (env : Env) (cols : Cols) (row : Int) (h : HeaderArg) :
    headerOf env (moveCols f cols) row h = (headerOf env cols row h).map fun r => (moveCols f r.1, r.2) := by
  have hl : (moveCols f cols).length = cols.length := by simp [moveCols]
  cases h with
  | rows n =>
    simp only [headerOf, makeHeader_move hf, hl]
    split
    · cases makeHeader env cols row n <;> rfl
    · rfl
  | names l =>
    simp only [headerOf, hl]
    split <;> rfl

theorem keysWhere_move (test : Str → Py Bool) (l : List (Str × Int)) :
    keysWhere test (l.map fun p => (p.1, f p.2)) = (keysWhere test l).map (List.map f) := by
  induction l with
  | nil => rfl
  | cons p l ih =>
    obtain ⟨name, k⟩ := p
    simp only [List.map_cons, keysWhere, ih]
    cases test name with
    | error e => rfl
    | ok b =>
      cases keysWhere test l with
      | error e => rfl
      | ok ks => cases b <;> rfl

theorem filterKeys_move (reMatch : Str → Str → Py Bool) (header : List Str) (keys : List Int) (rf : RowFilters) :
    filterKeys reMatch header (keys.map f) rf = (filterKeys reMatch header keys rf).map (List.map f) := by
  have hz : header.zip (keys.map f) = (header.zip keys).map fun p => (p.1, f p.2) := by
    rw [List.zip_map_right]
    rfl
  cases rf with
  | none => rfl
  | pattern p =>
    simp only [filterKeys, hz, keysWhere_move]
    split <;> rfl
  | positions l =>
    simp only [filterKeys, Except.map, List.zipIdx_map, List.filter_map, List.map_map]
    rfl
  | patterns l => simp only [filterKeys, hz, keysWhere_move]
  | bad => rfl

theorem rowMask_move (hf : StrictMono f) (env : Env) (cols : Cols) (ks : List Int) (st : Strategy) (o l : Int) :
    rowMask env (moveCols f cols) (ks.map f) st o l =
      (rowMask env cols ks st o l).map fun r => (moveCols f r.1, r.2) := by
  unfold rowMask
  rw [onColumns_move hf, List.isEmpty_map]
  split
  · rfl
  · cases onColumns (presence env o l) cols ks with
    | error e => rfl
    | ok r =>
      simp only [Except.map]
      cases combineFilters st r.2 with
      | error e => rfl
      | ok m =>
        simp only
        split <;> rfl

theorem readColumns_move (hf : StrictMono f) {A D : Type} (env : Env) (lib : Lib A D)
    (search : Str → Option (Str → Bool)) (reMatch : Str → Str → Py Bool) (args : ReadArgs D) (cols : Cols) :
    readColumns env lib search reMatch { args with lookup := args.lookup.move f } (moveCols f cols) =
      readColumns env lib search reMatch args cols := by
  unfold readColumns
  rw [maxLen_move, findHeader_move hf]
  cases maxLen cols with
  | error e => rfl
  | ok m =>
    simp only
    cases findHeader env search cols args.lookupSize args.lookup with
    | error e => rfl
    | ok r =>
      simp only [Except.map, headerOf_move hf]
      by_cases h1 : r.2 = -1
      · rw [if_pos h1, if_pos h1]
      rw [if_neg h1, if_neg h1]
      cases headerOf env r.1 r.2 args.header with
      | error e => rfl
      | ok r2 =>
        simp only [sortedKeys_move hf, filterKeys_move, Except.map]
        cases filterKeys reMatch r2.2.2 (sortedKeys r2.1) args.filters with
        | error e => rfl
        | ok ks =>
          simp only [rowMask_move hf, Except.map]
          cases rowMask env r2.1 ks args.strategy (r2.2.1 + r.2 + args.skipAfter)
              (m - r.2 - r2.2.1 - args.skipAfter) with
          | error e => rfl
          | ok r3 =>
            simp only [sortedKeys_move hf, onColumns_move hf, Except.map]
            cases onColumns (fetchWith env (r2.2.1 + r.2 + args.skipAfter) (m - r.2 - r2.2.1 - args.skipAfter) r3.2)
                r3.1 (sortedKeys r3.1) <;> rfl

theorem readCells_move (hf : StrictMono f) {A D : Type} (env : Env) (lib : Lib A D)
    (search : Str → Option (Str → Bool)) (reMatch : Str → Str → Py Bool) (args : ReadArgs D) (fresh : Series)
    (cells : List Cell) :
    readCells env lib search reMatch { args with lookup := args.lookup.move f } fresh (cells.map (Cell.move f)) =
      readCells env lib search reMatch args fresh cells := by
  unfold readCells
  have := collect_move hf env fresh cells []
  rw [show moveCols f [] = [] from rfl] at this
  rw [this]
  cases collect env fresh [] cells with
  | error e => rfl
  | ok cols => exact readColumns_move hf env lib search reMatch args cols

end Rxls
