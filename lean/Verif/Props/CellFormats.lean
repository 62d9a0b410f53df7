import Verif.Spec.CellFormats
import Verif.Props.Differential

/-! # Property C105: the style number of a cell is a position in `cellXfs` -/

namespace Rxls

/-- What the reader takes as the list of formats of an `xf` element. -/
def takenXf (a : List (Str × Str)) : Option Str := if (attrGet a attXfId).isSome then attrGet a attNumFmtId else none

/-- C105, what the code does: its list is made of the `xf` elements with an `xfId`, in `cellXfs` or not; if those elsewhere
have none, it is the list of the cell formats that have one. -/
theorem C105_exact (es : List Xml) (ho : ∀ a ∈ elsewhereXfs false es, attrGet a attXfId = none) :
    cellFmts es = (xfElems false es).filterMap takenXf := by
  have key : ∀ (es : List Xml) (b : Bool), (∀ a ∈ elsewhereXfs b es, attrGet a attXfId = none) →
      cellFmts es = (xfElems b es).filterMap takenXf := by
    have hne : tagXf ≠ tagCellXfs := by decide
    intro es
    induction es with
    | nil => intro b _; cases b <;> rfl
    | cons e es ih =>
      intro b hb
      rw [cellFmts_cons]
      cases e with
      | text s =>
        have : cellFmts [.text s] = [] := rfl
        rw [this, List.nil_append]
        cases b <;> exact ih _ hb
      | close t =>
        have : cellFmts [.close t] = [] := rfl
        rw [this, List.nil_append]
        cases b <;> exact ih _ hb
      | start t a =>
        by_cases ht : t = tagXf
        · subst ht
          have h1 : cellFmts [.start tagXf a] = (takenXf a).toList := by
            simp only [cellFmts, List.filterMap_cons, true_and, takenXf]
            by_cases hx : (attrGet a attXfId).isSome = true
            · simp only [hx, if_true]
              cases attrGet a attNumFmtId <;> rfl
            · simp only [hx, Bool.false_eq_true, if_false]
              rfl
          rw [h1]
          cases b with
          | true =>
            simp only [elsewhereXfs] at hb
            simp only [xfElems, if_true]
            rw [ih true hb, List.filterMap_cons]
            cases takenXf a <;> rfl
          | false =>
            simp only [elsewhereXfs, if_true, List.mem_cons, forall_eq_or_imp] at hb
            have : takenXf a = none := by simp [takenXf, hb.1]
            rw [this, Option.toList_none, List.nil_append]
            simp only [xfElems, hne, decide_false]
            exact ih false hb.2
        · have h1 : cellFmts [.start t a] = [] := by simp [cellFmts, ht]
          rw [h1, List.nil_append]
          cases b with
          | true =>
            simp only [elsewhereXfs] at hb
            simp only [xfElems, if_neg ht]
            exact ih true hb
          | false =>
            simp only [elsewhereXfs, if_neg ht] at hb
            simp only [xfElems]
            exact ih _ hb
  exact key es false ho

/-- C105, the part that holds: if every cell format has its `xfId` (which the standard leaves optional), and no format of a
cell style has one, then a cell of style number `i` gets the class of the `i`-th cell format.  Missing: formats without
`xfId`, where it is false (below). -/
theorem C105_style_number_partial (toInt : Str → Option Int) (es : List Xml) (h : StylesComplete es)
    (hi : ∀ y ∈ cellFmts es, (toInt y).isSome) (ho : ∀ a ∈ elsewhereXfs false es, attrGet a attXfId = none)
    (hx : ∀ a ∈ xfElems false es, (attrGet a attXfId).isSome ∧ (attrGet a attNumFmtId).isSome) :
    ∃ l, xlsxStyles toInt ⟨es, false⟩ = .ok l ∧
      ∀ i a y n, (xfElems false es)[i]? = some a → attrGet a attNumFmtId = some y → toInt y = some n →
      (l.find? fun p => p.1 = pyStr i).map (·.2) = (classWith (codeOf (numFmts es) y) y n).tag := by
  obtain ⟨l, h1, h2⟩ := C103_exact toInt es h hi
  refine ⟨l, h1, fun i a y n hia hay hyn => h2 i y n ?_ hyn⟩
  have hl : ∀ L : List (List (Str × Str)), (∀ a ∈ L, (attrGet a attXfId).isSome ∧ (attrGet a attNumFmtId).isSome) →
      L.filterMap takenXf = L.map fun a => (attrGet a attNumFmtId).getD [] := by
    intro L
    induction L with
    | nil => intro _; rfl
    | cons b L ih =>
      intro hL
      obtain ⟨e1, e2⟩ := hL b List.mem_cons_self
      obtain ⟨z, hz⟩ := Option.isSome_iff_exists.1 e2
      rw [List.filterMap_cons, List.map_cons, ih fun c hc => hL c (List.mem_cons_of_mem _ hc)]
      simp [takenXf, e1, hz]
  rw [C105_exact es ho, hl _ hx, List.getElem?_map, hia, Option.map_some, hay]
  rfl

/-- When a cell format has no `xfId`, the reader's list has fewer formats than `cellXfs`. -/
theorem C105_shorter (es : List Xml) (ho : ∀ a ∈ elsewhereXfs false es, attrGet a attXfId = none)
    (hx : ∃ a ∈ xfElems false es, attrGet a attXfId = none) : (cellFmts es).length < (xfElems false es).length := by
  obtain ⟨a, ha, hn⟩ := hx
  rw [C105_exact es ho]
  exact List.length_filterMap_lt_length_iff_exists.2 ⟨a, ha, by simp [takenXf, hn]⟩

/-- A style sheet with the formats 0, 14 and 2, of which some have no `xfId`. -/
def exXfs (x0 x1 : List (Str × Str)) : List Xml :=
  [.start ['s'] [], .start ['c', 'e', 'l', 'l', 'S', 't', 'y', 'l', 'e', 'X', 'f', 's'] [],
   .start tagXf [(attNumFmtId, ['0'])], .close tagXf, .close ['c', 'e', 'l', 'l', 'S', 't', 'y', 'l', 'e', 'X', 'f', 's'],
   .start tagCellXfs [], .start tagXf ((attNumFmtId, ['0']) :: x0), .close tagXf,
   .start tagXf ((attNumFmtId, ['1', '4']) :: x1), .close tagXf, exXf ['2'], .close tagXf,
   .close tagCellXfs, .close ['s']]

example : xfElems false (exXfs [] []) = [[(attNumFmtId, ['0'])], [(attNumFmtId, ['1', '4'])], [(attNumFmtId, ['2']), (attXfId, ['0'])]] ∧
    elsewhereXfs false (exXfs [] []) = [[(attNumFmtId, ['0'])]] ∧
    cellFmts (exXfs [(attXfId, ['0'])] [(attXfId, ['0'])]) = [['0'], ['1', '4'], ['2']] ∧
    xlsxStyles exInt ⟨exXfs [(attXfId, ['0'])] [(attXfId, ['0'])], false⟩ = .ok [(['2'], 0x20), (['1'], 0x24)] := by
  decide +kernel

/-- C105, finding: a first cell format without `xfId` moves all style numbers by one: the dates of the file (style 1) become
numbers, and a cell of style 0 would be a date. -/
theorem C105_style_number_finding :
    (xfElems false (exXfs [] [(attXfId, ['0'])])).map (attrGet · attNumFmtId) = [some ['0'], some ['1', '4'], some ['2']] ∧
    xlsxStyles exInt ⟨exXfs [] [(attXfId, ['0'])], false⟩ = .ok [(['1'], 0x20), (['0'], 0x24)] ∧
    (readXlsx demoEnv exLib (fun _ => none) (fun _ _ => .ok false) exInt (fun s => s == ['-']) exConcat {} {}
      { exXlsxFile with styles := some ⟨exXfs [(attXfId, ['0'])] [(attXfId, ['0'])], false⟩ }).map (·.arrays) = exReadX {} ∧
    (readXlsx demoEnv exLib (fun _ => none) (fun _ _ => .ok false) exInt (fun s => s == ['-']) exConcat {} {}
      { exXlsxFile with styles := some ⟨exXfs [] [(attXfId, ['0'])], false⟩ }).map (fun t => t.arrays[1]?) =
      .ok (some (.arr ⟨.i8, [none, none, none, some (.i8 45292)]⟩)) := by
  decide +kernel

end Rxls
