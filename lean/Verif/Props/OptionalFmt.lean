import Verif.Spec.OptionalFmt
import Verif.Lemmas.XlsxParts
import Verif.Props.EndToEndXlsx
import Verif.Props.Differential

/-! # Property C114: a cell format without a number format is General -/

namespace Rxls

theorem stylesXml_incomplete (es : List Xml) (h : ¬ StylesComplete es) : ∀ (fms : List (Str × Str)) (xfs : List Str),
    stylesXml fms xfs es = .error .keyError := by
  induction es with
  | nil => exact absurd (fun t a ht => by cases ht) h
  | cons e es ih =>
    intro fms xfs
    by_cases hes : StylesComplete es
    · cases e with
      | text s => exact absurd (fun t a ht => hes t a (by simpa using ht)) h
      | close s => exact absurd (fun t a ht => hes t a (by simpa using ht)) h
      | start t a =>
        rw [stylesXml]
        by_cases hN : t = tagNumFmt
        · rw [if_pos hN]
          cases hc : attrGet a attFormatCode with
          | none => simp only [attrAt, hc]
          | some c =>
            cases hi : attrGet a attNumFmtId with
            | none => simp only [attrAt, hc, hi]
            | some i =>
              refine absurd ?_ h
              intro t' a' ht'
              rcases List.mem_cons.1 ht' with e | ht'
              · cases e
                refine ⟨fun _ => by simp [hc, hi], fun e => ?_⟩
                rw [hN] at e
                exact absurd e (by decide)
              · exact hes t' a' ht'
        · rw [if_neg hN]
          by_cases hX : t = tagXf ∧ (attrGet a attXfId).isSome
          · rw [if_pos hX]
            cases hi : attrGet a attNumFmtId with
            | none => simp only [attrAt, hi]
            | some i =>
              refine absurd ?_ h
              intro t' a' ht'
              rcases List.mem_cons.1 ht' with e | ht'
              · cases e
                exact ⟨fun e => absurd e hN, fun _ _ => by simp [hi]⟩
              · exact hes t' a' ht'
          · refine absurd ?_ h
            intro t' a' ht'
            rcases List.mem_cons.1 ht' with e | ht'
            · cases e
              exact ⟨fun e => absurd e hN, fun h1 h2 => absurd ⟨h1, h2⟩ hX⟩
            · exact hes t' a' ht'
    · cases e with
      | text s => exact ih hes fms xfs
      | close s => exact ih hes fms xfs
      | start t a =>
        rw [stylesXml]
        by_cases hN : t = tagNumFmt
        · rw [if_pos hN]
          split
          · exact ih hes _ _
          · rfl
        · rw [if_neg hN]
          split
          · cases hi : attrGet a attNumFmtId with
            | none => simp only [attrAt, hi]
            | some i => simp only [attrAt, hi]; exact ih hes _ _
          · exact ih hes _ _

theorem stylesXml_complete (es : List Xml) (h : StylesComplete es) (fms : List (Str × Str)) (xfs : List Str) :
    ∃ fms', stylesXml fms xfs es = .ok (fms', xfs ++ cellFmts es) :=
  ⟨_, stylesXml_codes es h fms xfs⟩

/-- C114, exact: how the styles part is read.  KeyError, if and only if an attribute is missing that the reader asks for; after
that a syntax error; after that ValueError, if and only if the id of the number format of a cell format is not an integer. -/
theorem C114_exact (toInt : Str → Option Int) (d : XmlDoc) :
    (xlsxStyles toInt d = .error .keyError ↔ ¬ StylesComplete d.events) ∧
    (xlsxStyles toInt d = .error .runtimeError ↔ StylesComplete d.events ∧ d.bad = true) ∧
    (xlsxStyles toInt d = .error .valueError ↔
      StylesComplete d.events ∧ d.bad = false ∧ ∃ y ∈ cellFmts d.events, toInt y = none) ∧
    ((∃ l, xlsxStyles toInt d = .ok l) ↔
      StylesComplete d.events ∧ d.bad = false ∧ ∀ y ∈ cellFmts d.events, toInt y ≠ none) := by
  by_cases h : StylesComplete d.events
  · obtain ⟨fms, h1⟩ := stylesXml_complete d.events h [] []
    unfold xlsxStyles
    rw [h1]
    simp only [List.nil_append, h, true_and, not_true_eq_false, iff_false]
    cases hb : d.bad with
    | true => simp
    | false =>
      simp only [Bool.false_eq_true, if_false, true_and, false_iff, and_false, iff_false]
      by_cases hi : ∃ y ∈ cellFmts d.events, toInt y = none
      · have : (cellFmts d.events).any (fun y => (toInt y).isNone) = true := by
          rw [List.any_eq_true]
          obtain ⟨y, hy, e⟩ := hi
          exact ⟨y, hy, by simp [e]⟩
        rw [if_pos this]
        refine ⟨by simp, by simp, by simp [hi], ?_⟩
        obtain ⟨y, hy, e⟩ := hi
        simp only [reduceCtorEq, exists_false, false_iff]
        intro hall
        exact hall y hy e
      · have : ¬ (cellFmts d.events).any (fun y => (toInt y).isNone) = true := by
          rw [List.any_eq_true]
          rintro ⟨y, hy, e⟩
          exact hi ⟨y, hy, by simpa using e⟩
        rw [if_neg this]
        refine ⟨by simp, by simp, by simp [hi], ?_⟩
        constructor
        · intro _ y hy e
          exact hi ⟨y, hy, e⟩
        · intro _
          exact ⟨_, rfl⟩
  · have : xlsxStyles toInt d = .error .keyError := by
      unfold xlsxStyles
      rw [stylesXml_incomplete d.events h]
    rw [this]
    simp [h]

/-- C114, what the code does: a file with a cell format that leaves its number format out (and any other file whose styles part
lacks an attribute that the reader asks for) is refused with KeyError, whichever sheet is asked for, whatever the other
arguments are, and whether or not a cell has the format. -/
theorem C114_read_refused {A D : Type} (env : Env) (lib : Lib A D) (search : Str → Option (Str → Bool))
    (reMatch : Str → Str → Py Bool) (toInt : Str → Option Int) (isNull : Str → Bool) (o : ConcatOpts) (ia : IterArgs)
    (args : ReadArgs D) (f : XlsxFile) (d : XmlDoc) (hd : f.styles = some d) (hc : ¬ StylesComplete d.events) :
    ∃ e, readXlsx env lib search reMatch toInt isNull o ia args f = .error e ∧
      ∀ sheets path rows, xlsxSheets f.rels f.workbook = .ok sheets → selectSheet sheets ia.sheet = .ok path →
        checkRows ia.skipRows ia.takeRows = .ok rows → (f.parts path).isSome → e = .keyError := by
  have hf : f.formats toInt = .error .keyError := by
    unfold XlsxFile.formats
    rw [hd]
    exact ((C114_exact toInt d).1).2 hc
  unfold readXlsx
  cases h1 : xlsxSheets f.rels f.workbook with
  | error e => exact ⟨e, rfl, fun s p r h => by cases h⟩
  | ok sheets =>
    cases h2 : selectSheet sheets ia.sheet with
    | error e =>
      refine ⟨e, by simp only [h2], ?_⟩
      intro s p r h h'
      cases h
      rw [h2] at h'
      cases h'
    | ok path =>
      cases h3 : checkRows ia.skipRows ia.takeRows with
      | error e => exact ⟨e, by simp only [h2], fun s p r _ _ h => by cases h⟩
      | ok rows =>
        cases h4 : f.parts path with
        | none =>
          refine ⟨.keyError, ?_, fun _ _ _ _ _ _ _ => rfl⟩
          simp only [h2, h4, openPart]
        | some part =>
          refine ⟨.keyError, ?_, fun _ _ _ _ _ _ _ => rfl⟩
          simp only [h2, h4, openPart, hf]

theorem attrGet_append (a b : List (Str × Str)) (k : Str) :
    attrGet (a ++ b) k = (attrGet a k).or (attrGet b k) := by
  unfold attrGet
  rw [List.find?_append]
  cases a.find? _ <;> simp

/-- C114, partial: where the standard is kept and every cell format names its number format by an integer, the styles part is
read; and writing the format General out makes any part that keeps the standard readable.  Missing: cell formats that leave it
out (`C114_read_refused`). -/
theorem C114_filled_partial (toInt : Str → Option Int) (d : XmlDoc) (hf : FmtsComplete d.events) (hb : d.bad = false)
    (h0 : toInt ['0'] ≠ none) (hi : ∀ y ∈ cellFmts d.events, toInt y ≠ none) :
    (∃ l, xlsxStyles toInt d.filled = .ok l) ∧
    ((∀ a, Xml.start tagXf a ∈ d.events → (attrGet a attNumFmtId).isSome) →
      d.filled = d ∧ ∃ l, xlsxStyles toInt d = .ok l) := by
  have hcomp : StylesComplete d.filled.events := by
    intro t a ht
    obtain ⟨e, he, h⟩ := List.mem_map.1 ht
    cases e with
    | text s => cases h
    | close s => cases h
    | start t' a' =>
      simp only [Xml.filled] at h
      split at h
      · rename_i hx
        cases h
        refine ⟨fun e => ?_, fun _ _ => ?_⟩
        · exact absurd (hx.1.symm.trans e) (by decide)
        · rw [attrGet_append, hx.2]
          decide
      · rename_i hx
        cases h
        refine ⟨fun e => hf a (e ▸ he), fun e _ => ?_⟩
        cases hg : attrGet a attNumFmtId with
        | none => exact absurd ⟨e, hg⟩ hx
        | some v => rfl
  have hids : ∀ y ∈ cellFmts d.filled.events, toInt y ≠ none := by
    intro y hy
    obtain ⟨e, he, h⟩ := List.mem_filterMap.1 hy
    obtain ⟨e0, he0, rfl⟩ := List.mem_map.1 he
    cases e0 with
    | text s => cases h
    | close s => cases h
    | start t a =>
      simp only [Xml.filled] at h
      by_cases hx : t = tagXf ∧ attrGet a attNumFmtId = none
      · rw [if_pos hx] at h
        simp only at h
        split at h
        · rw [attrGet_append, hx.2] at h
          have : y = ['0'] := by
            have e : attrGet [(attNumFmtId, ['0'])] attNumFmtId = some ['0'] := by decide
            rw [e] at h
            simpa using h.symm
          rw [this]
          exact h0
        · cases h
      · rw [if_neg hx] at h
        exact hi y (List.mem_filterMap.2 ⟨_, he0, h⟩)
  refine ⟨(C114_exact toInt d.filled).2.2.2.2 ⟨hcomp, hb, hids⟩, ?_⟩
  intro hall
  have e : d.filled = d := by
    have : d.events.map Xml.filled = d.events := by
      conv_rhs => rw [← List.map_id d.events]
      refine List.map_congr_left fun e he => ?_
      cases e with
      | text s => rfl
      | close s => rfl
      | start t a =>
        simp only [Xml.filled, id]
        rw [if_neg]
        rintro ⟨rfl, h⟩
        have := hall a he
        rw [h] at this
        cases this
    unfold XmlDoc.filled
    rw [this]
  refine ⟨e, ?_⟩
  rw [e] at hcomp
  exact (C114_exact toInt d).2.2.2.2 ⟨hcomp, hb, hi⟩

/-- The example file with one more cell format, which no cell has. -/
def exFmtFile (a : List (Str × Str)) : XlsxFile :=
  let doc : XmlDoc := ⟨exTStyles ++ [.start tagXf a, .close tagXf], false⟩
  { exXlsxFile with styles := some doc }

@[inherit_doc exFmtFile] def exFmtRead (f : XlsxFile) : Py (List Fetched) :=
  (readXlsx demoEnv exLib (fun _ => none) (fun _ _ => .ok false) exInt (fun s => s == ['-']) exConcat {} {} f).map (·.arrays)

example : exFmtRead (exFmtFile [(attXfId, ['0']), (attNumFmtId, ['0'])]) = exReadX {} ∧
    exFmtRead { exFmtFile [(attXfId, ['0'])] with styles := (exFmtFile [(attXfId, ['0'])]).styles.map XmlDoc.filled } =
      exReadX {} ∧
    exFmtRead (exFmtFile []) = exReadX {} := by
  decide +kernel

/-- C114, finding: one cell format without `numFmtId`, though no cell has it, and the file is refused with KeyError. -/
theorem C114_missing_finding : exFmtRead (exFmtFile [(attXfId, ['0'])]) = .error .keyError := by
  decide +kernel

end Rxls
