import Verif.Props.EndToEndXlsx
import Verif.Props.Xlsx

/-! # C43 and C65, exactly which sheets give the same rows in both formats -/

namespace Rxls

/-! ## C43 -/

private theorem num_empty (keep : Bool) (L : List (List Item)) (h : ∀ r ∈ L, r = []) : ∀ n, numberedFrom keep n L = [] := by
  induction L with
  | nil => intro n; exact numberedFrom_nil _ _
  | cons r L ih =>
    intro n
    rw [numberedFrom_cons, h r (by simp), ih fun r hr => h r (by simp [hr])]
    rfl

private theorem num_nil (L : List (List Item)) : ∀ n, numberedFrom true n L = [] → ∀ r ∈ L, r = [] := by
  induction L with
  | nil => intro n _ r hr; simp at hr
  | cons r L ih =>
    intro n h
    rw [numberedFrom_cons, List.append_eq_nil_iff, List.map_eq_nil_iff] at h
    intro x hx
    rcases List.mem_cons.1 hx with rfl | hx
    · exact h.1
    · exact ih _ h.2 x hx

private theorem num_append (A B : List (List Item)) : ∀ n, numberedFrom true n (A ++ B) =
    numberedFrom true n A ++ numberedFrom true (n + A.length) B := by
  induction A with
  | nil => intro n; simp [numberedFrom_nil]
  | cons r A ih =>
    intro n
    rw [List.cons_append, numberedFrom_cons, numberedFrom_cons, ih]
    simp only [Bool.not_true, Bool.and_false, Bool.false_eq_true, if_false, List.append_assoc, List.length_cons]
    rw [show n + 1 + A.length = n + (A.length + 1) by omega]

private theorem num_first (L : List (List Item)) (h : ∃ r ∈ L, r ≠ []) : ∀ n,
    ∃ c cs, numberedFrom false n L = c :: cs ∧ c.row = n := by
  induction L with
  | nil => simp at h
  | cons r L ih =>
    intro n
    rw [numberedFrom_cons]
    cases r with
    | cons i r => exact ⟨_, _, rfl, rfl⟩
    | nil =>
      have h' : ∃ r ∈ L, r ≠ [] := by
        obtain ⟨x, hx, hne⟩ := h
        rcases List.mem_cons.1 hx with rfl | hx
        · exact absurd rfl hne
        · exact ⟨x, hx, hne⟩
      simpa using ih h' n

/-- Numbering the rows with a value, or all rows: the same places iff every row after an empty one is empty. -/
private theorem num_gaps (D : List (List Item)) : ∀ n,
    ((numberedFrom false n D).map place = (numberedFrom true n D).map place ↔
      ∀ r ∈ D.dropWhile (fun r => !r.isEmpty), r = []) := by
  induction D with
  | nil => intro n; simp [numberedFrom_nil]
  | cons r D ih =>
    intro n
    rw [numberedFrom_cons, numberedFrom_cons]
    cases r with
    | cons i r =>
      simp only [List.isEmpty_cons, Bool.false_and, Bool.false_eq_true, if_false, List.map_append,
        List.append_cancel_left_eq, List.dropWhile_cons, Bool.not_false, if_true]
      exact ih (n + 1)
    | nil =>
      simp only [List.map_nil, List.nil_append, List.isEmpty_nil, Bool.not_true, Bool.and_false, Bool.false_eq_true,
        if_false, List.dropWhile_cons, Bool.not_false, Bool.and_true, if_true]
      constructor
      · intro h r hr
        rcases List.mem_cons.1 hr with rfl | hr
        · rfl
        by_contra hne
        obtain ⟨c, cs, e, hc⟩ := num_first D ⟨r, hr, hne⟩ n
        rw [e] at h
        have hm : place c ∈ (numberedFrom true (n + 1) D).map place := by rw [← h]; simp
        obtain ⟨c', hc', e'⟩ := List.mem_map.1 hm
        have h1 := numberedFrom_ge true D (n + 1) c' hc'
        have h2 : c'.row = c.row := congrArg Prod.fst e'
        omega
      · intro h
        rw [num_empty false D fun r hr => h r (by simp [hr]), num_empty true D fun r hr => h r (by simp [hr])]

/-- C43, exactly when it holds.  Empty rows counted: the sheet begins with a value, or the XLSX reader, which stops after
`2 e + 1` rows when `e` rows at the top are empty, has by then met all the values.  Empty rows not counted: below the first
value, no empty row comes before a row with a value. -/
theorem C43_exact (xst : List (Str × Nat)) (bst : List Bytes) (isNull : Str → Bool) (nulls : List Bytes)
    (keep : Bool) (s : XSheet) (hs : s.Ok) (p : SheetParts) (hp : p.Ok) (L : List (List Item))
    (hL : sheetItems (xlsbCell bst isNull nulls []) p.rows = .ok L)
    (hsame : L.map (List.map Prod.fst) = (s.rows.map (XRow.items xst isNull [])).map (List.map Prod.fst)) :
    ∃ evs, iterXlsb bst isNull (fun _ => nulls) { keepEmpty := keep } p.records {} = .ok evs ∧
      ((evCells evs).map place =
        (evCells (xlsxSheet xst isNull { keepEmpty := keep } ⟨s.events, false⟩).1).map place ↔
      if keep then leadingEmpty L = 0 ∨ ∀ r ∈ L.drop (2 * leadingEmpty L + 1), r = []
      else ∀ r ∈ (L.dropWhile List.isEmpty).dropWhile (fun r => !r.isEmpty), r = []) := by
  have h0 := C37_rows_in_place bst isNull nulls keep p hp
  rw [hL] at h0
  obtain ⟨evs, he⟩ : ∃ evs, iterXlsb bst isNull (fun _ => nulls) { keepEmpty := keep } p.records {} = .ok evs := by
    cases h : iterXlsb bst isNull (fun _ => nulls) { keepEmpty := keep } p.records {} with
    | error e => rw [h] at h0; simp [Except.map] at h0
    | ok evs => exact ⟨evs, rfl⟩
  rw [he] at h0
  simp only [Except.map, Except.ok.injEq] at h0
  refine ⟨evs, he, ?_⟩
  rw [h0]
  set X := s.rows.map (XRow.items xst isNull []) with hX
  have hlead := leadingEmpty_places L X hsame
  cases keep with
  | true =>
    obtain ⟨h1, _, _⟩ := sheet_keep (styles := xst) (isNull := isNull) (bad := false) s hs 0 0 [] _ hX
    rw [h1]
    simp only [List.drop_zero, Nat.mul_zero, Nat.add_zero, Nat.zero_add, if_true, ← hlead]
    have hnum : numbered true L = numberedFrom true 0 L := rfl
    rw [hnum]
    by_cases hz : leadingEmpty L = 0
    · simp only [hz, Nat.mul_zero, winRows, if_true, true_or, iff_true]
      exact numberedFrom_places L X hsame 0
    · have hw : winRows (2 * leadingEmpty L) 0 X = X.take (2 * leadingEmpty L + 1) := by
        rw [winRows, if_neg (by omega), Nat.sub_zero]
      rw [hw]
      simp only [hz, false_or]
      generalize 2 * leadingEmpty L + 1 = m
      have hp := numberedFrom_places (L.take m) (X.take m) (by rw [List.map_take, List.map_take, hsame]) 0
      have hp : (numberedFrom true 0 (L.take m)).map place = (numberedFrom true 0 (X.take m)).map place := hp
      rw [← hp]
      conv_lhs => lhs; rw [← List.take_append_drop m L]
      rw [num_append, List.map_append]
      constructor
      · intro h
        have := List.append_right_eq_self.1 h
        exact num_nil _ _ (List.map_eq_nil_iff.1 this)
      · intro h
        rw [num_empty true _ h, List.map_nil, List.append_nil]
  | false =>
    obtain ⟨h1, _, _⟩ := sheet_drop (styles := xst) (isNull := isNull) (bad := false) s hs 0 [] _ hX
    rw [h1]
    simp only [winRows, if_true, Bool.false_eq_true, if_false]
    have hp : (numberedFrom true 0 (L.dropWhile List.isEmpty)).map place =
        (numberedFrom true 0 (X.dropWhile List.isEmpty)).map place :=
      numberedFrom_places _ _ (dropWhile_places L X hsame) 0
    rw [← hp, ← num_gaps _ 0]
    have e : L.filter (· ≠ []) = (L.dropWhile List.isEmpty).filter (· ≠ []) := by
      conv_lhs => rw [← List.takeWhile_append_dropWhile (p := List.isEmpty) (l := L)]
      have e0 : (L.takeWhile List.isEmpty).filter (· ≠ []) = [] := by
        apply List.filter_eq_nil_iff.2
        intro is his
        have := List.all_eq_true.1 (List.all_takeWhile (p := List.isEmpty) (l := L)) is his
        simpa using this
      rw [List.filter_append, e0, List.nil_append]
    have hnum : numbered false L = numberedFrom false 0 (L.dropWhile List.isEmpty) := by
      simp only [numbered, numberedFrom, Bool.false_eq_true, if_false, e]
    rw [hnum]

-- Two empty rows, three values, an empty row, a value; as XLSB all are delivered, as XLSX (counting empty rows) five rows.
example : leadingEmpty [[], [], [(0, 0x18, .text ['1'])], [], [(0, 0x18, .text ['2'])], [], [(0, 0x18, .text ['3'])]] = 2 ∧
    (evCells (xlsxSheet [] (fun _ => false) { keepEmpty := true }
      ⟨(exColumn [none, none, some ['1'], none, some ['2'], none, some ['3']]).events, false⟩).1).map place =
      [(2, 0), (4, 0)] := by
  decide +kernel

/-! ## C65 -/

/-- The rows of a sheet that are delivered from XLSX and from XLSB are the same under exactly these conditions.  Empty
rows not counted: the rows that XLSX gives contain no empty one.  Empty rows counted, `W` the rows from `skip_rows` on and
`e` the number of empty rows `W` begins with: without a limit `e = 0` or XLSX does not stop before the end; with one,
nothing is skipped and `e = 0`, or the limit is not reached. -/
theorem C65_rows_exact {α : Type} [DecidableEq α] (k t : Nat) (L : List (List α)) :
    (xlsxRows k t false L = xlsbRows k t false L ↔ [] ∉ xlsxRows k t false L) ∧
    (xlsxRows k t true L = xlsbRows k t true L ↔
      let W := L.drop k
      let e := (W.takeWhile List.isEmpty).length
      if t + k = 0 then e = 0 ∨ W.length ≤ 2 * e + 1 else k + e = 0 ∨ W.length ≤ t + 1) := by
  constructor
  · by_cases hk : k = 0
    · simp only [xlsxRows, xlsbRows, hk, Bool.false_eq_true, if_false, if_true]
      have hf : L.filter (· ≠ []) = (L.dropWhile List.isEmpty).filter (· ≠ []) := by
        conv_lhs => rw [← List.takeWhile_append_dropWhile (p := List.isEmpty) (l := L)]
        rw [List.filter_append]
        have : (L.takeWhile List.isEmpty).filter (· ≠ []) = [] := by
          rw [List.filter_eq_nil_iff]
          intro a ha
          have := List.all_takeWhile (p := List.isEmpty) (l := L)
          rw [List.all_eq_true] at this
          simpa using this a ha
        rw [this, List.nil_append]
      rw [hf]
      generalize L.dropWhile List.isEmpty = D
      split
      · constructor
        · intro h hm
          rw [h, List.mem_filter] at hm
          simp at hm
        · intro h
          rw [List.filter_eq_self.2]
          intro a ha
          simp only [ne_eq, decide_not, Bool.not_eq_eq_eq_not, Bool.not_true, decide_eq_false_iff_not]
          rintro rfl
          exact h ha
      · constructor
        · intro h hm
          rw [h] at hm
          have := (List.mem_filter.1 (List.mem_of_mem_take hm)).2
          simp at this
        · intro h
          generalize t + 1 = n at h
          induction D generalizing n with
          | nil => simp
          | cons r D ih =>
            cases n with
            | zero => simp
            | succ n =>
              rw [List.take_succ_cons, List.mem_cons, not_or] at h
              rw [List.filter_cons_of_pos (by simpa using fun h' : r = [] => h.1 h'.symm), List.take_succ_cons,
                List.take_succ_cons, ih n h.2]
    · simp [xlsxRows, xlsbRows, hk]
  · simp only [xlsxRows, xlsbRows, if_true]
    generalize hE : ((L.drop k).takeWhile List.isEmpty).length = e
    have htake : ∀ (W : List (List α)) (a b : Nat), a ≤ b → (W.take b = W.take a ↔ a = b ∨ W.length ≤ a) := by
      intro W a b hab
      constructor
      · intro h
        have := congrArg List.length h
        simp only [List.length_take] at this
        omega
      · rintro (h | h)
        · rw [h]
        · rw [List.take_of_length_le h, List.take_of_length_le (by omega)]
    by_cases h0 : t + k = 0
    · have hk : k = 0 := by omega
      have ht : t = 0 := by omega
      subst hk ht
      simp only [List.drop_zero, Nat.zero_add, Nat.add_zero, if_true]
      by_cases h1 : e = 0
      · simp [h1]
      · rw [if_neg h1]
        simp only [h1, false_or]
        rw [List.take_eq_self_iff]
        simp
    · rw [if_neg (show ¬ t + k + e = 0 by omega), if_neg h0, if_neg h0, htake _ _ _ (by omega)]
      omega

/-- C65, for all arguments.  A sheet with the same values in both formats gives the same table, or the same exception,
whenever the two formats give the same rows (`C65_rows_exact` says when).  Missing: the other sheets, where the formats
differ unless the difference is in empty rows at the end. -/
theorem C65_same_rows_partial {A D : Type} (env : Env) (lib : Lib A D) (search : Str → Option (Str → Bool))
    (reMatch : Str → Str → Py Bool) (toInt : Str → Option Int) (isNull : Str → Bool) (o : ConcatOpts)
    (k t : Nat) (keep : Bool) (cols : List Int) (sheet : SheetArg)
    (args : ReadArgs D) (ha : args.Sensible)
    (fx : XlsxFile) (formats : List StyleClass) (sharedx : List Str) (gx : TGrid)
    (hx : fx.Holds env toInt sheet isNull formats sharedx gx)
    (fb : XlsbFile) (temporal : List Bytes) (sharedb : List Str) (gb : Grid)
    (hb : fb.Holds sheet isNull temporal sharedb gb)
    (hv : gx.values env isNull formats sharedx = gb.values temporal sharedb isNull)
    (hrows : xlsxRows k t keep ((gb.values temporal sharedb isNull).without cols) =
      xlsbRows k t keep ((gb.values temporal sharedb isNull).without cols))
    (V : VGrid) (hV : V = (gb.values temporal sharedb isNull).shownXlsb k t keep cols)
    (hres : V.Resolvable env o fun k => gx.inline k && gb.inline k)
    (hdata : V.flatten ≠ [] → V.HasData env search args o) :
    readXlsx env lib search reMatch toInt isNull o
        { sheet := sheet, skipRows := k, takeRows := t, keepEmpty := keep, skipCols := cols } args fx =
      readXlsb env lib search reMatch isNull o
        { sheet := sheet, skipRows := k, takeRows := t, keepEmpty := keep, skipCols := cols } args fb := by
  subst hV
  have hsame : (gx.values env isNull formats sharedx).shownXlsx k t keep cols =
      (gb.values temporal sharedb isNull).shownXlsb k t keep cols := by
    rw [hv]
    exact hrows
  have e1 := C63_xlsx_to_table env lib search reMatch toInt isNull o k t keep cols sheet args ha fx formats sharedx
    gx hx _ rfl (by rw [hsame]; exact fun k => (hres k).mono fun h => (Bool.and_eq_true _ _ ▸ h).1) (by rw [hsame]; exact hdata)
  have e2 := C64_xlsb_to_table env lib search reMatch isNull o k t keep cols sheet args ha fb temporal sharedb
    gb hb _ rfl (fun k => (hres k).mono fun h => (Bool.and_eq_true _ _ ▸ h).2) hdata
  rw [hsame] at e1
  exact e1.trans e2.symm

-- Two rows skipped and one more taken from a sheet of four: both formats give the last two.
example : xlsxRows 2 1 true [[1], [], [2], [3]] = [[2], [3]] ∧ xlsbRows 2 1 true [[1], [], [2], [3]] = [[2], [3]] ∧
    xlsxRows 1 0 true [[1], [2], [3]] = [[2], [3]] ∧ xlsbRows 1 0 true [[1], [2], [3]] = [[2]] := by
  decide

end Rxls
