import Verif.Lemmas.Memory

/-! # No memory outside the buffers: `read` -/

namespace Rxls

/-- The references of all columns can be followed. -/
def SafeCols (env : Env) (cols : Cols) : Prop := ∀ p ∈ cols, SafeSeries env p.2

theorem SafeCols.set {env : Env} {cols : Cols} (h : SafeCols env cols) (k : Int) {s : Series} (hs : SafeSeries env s) :
    SafeCols env (cols.map fun q => if q.1 = k then (q.1, s) else q) := by
  intro p hp
  obtain ⟨q, hq, rfl⟩ := List.mem_map.mp hp
  split
  · exact hs
  · exact h q hq

/-- The result stays in bounds, and so do the columns. -/
def SafeRes {α : Type} (env : Env) (x : Py (Cols × α)) : Prop := InBounds x ∧ ∀ r, x = .ok r → SafeCols env r.1

theorem SafeRes.error {α : Type} {env : Env} {e : PyErr} (h : e ≠ .undefinedBehaviour) :
    SafeRes (α := α) env (.error e) := ⟨by simpa using h, by simp⟩

theorem SafeRes.ok {α : Type} {env : Env} {cols : Cols} {a : α} (h : SafeCols env cols) : SafeRes env (.ok (cols, a)) :=
  ⟨by simp, by simpa using h⟩

theorem onColumn_safe {α : Type} {env : Env} {f : Series → Series × Py α}
    (hf : ∀ s, SafeSeries env s → SafeSeries env (f s).1 ∧ InBounds (f s).2) {cols : Cols} (h : SafeCols env cols)
    (k : Int) : SafeRes env (onColumn cols k f) := by
  unfold onColumn
  split
  · exact .error (by simp)
  · rename_i p hp
    have h1 := hf p.2 (h p (List.mem_of_find?_eq_some hp))
    split
    · rename_i e; rw [e] at h1; exact .error (by simpa using h1.2)
    · rename_i e; rw [e] at h1; exact .ok (h.set k h1.1)

theorem onColumns_safe {α : Type} {env : Env} {f : Series → Series × Py α}
    (hf : ∀ s, SafeSeries env s → SafeSeries env (f s).1 ∧ InBounds (f s).2) : ∀ (ks : List Int) {cols : Cols},
    SafeCols env cols → SafeRes env (onColumns f cols ks)
  | [], _, h => .ok h
  | k :: ks, cols, h => by
    have h1 := onColumn_safe hf h k
    rw [onColumns]
    split
    · rename_i e; rw [e] at h1; exact .error (by simpa using h1.1)
    · rename_i cols' a e
      have h2 := onColumns_safe hf ks (h1.2 _ e)
      split
      · rename_i e; rw [e] at h2; exact .error (by simpa using h2.1)
      · rename_i e; exact .ok (h2.2 _ e)

theorem textsOf_safe (env : Env) (off len : Int) (s : Series) (h : SafeSeries env s) :
    SafeSeries env (textsOf env off len s).1 ∧ InBounds (textsOf env off len s).2 := by
  unfold textsOf
  have h1 := toUtf8_safe env s off len none h
  split
  · rename_i e; rw [e] at h1; exact ⟨h1.1, by simp⟩
  · rename_i e; rw [e] at h1; exact ⟨h1.1, by simpa using h1.2⟩

theorem firstText_safe (env : Env) (off : Int) (s : Series) (h : SafeSeries env s) :
    SafeSeries env (firstText env off s).1 ∧ InBounds (firstText env off s).2 := by
  unfold firstText
  have h1 := textsOf_safe env off 1 s h
  split
  · rename_i e; rw [e] at h1; exact ⟨h1.1, by simp⟩
  · rename_i e; rw [e] at h1; exact ⟨h1.1, by simp⟩
  · rename_i e; rw [e] at h1; exact ⟨h1.1, by simpa using h1.2⟩

theorem presence_safe (env : Env) (off len : Int) (s : Series) (h : SafeSeries env s) :
    SafeSeries env (presence env off len s).1 ∧ InBounds (presence env off len s).2 := by
  unfold presence
  have h1 := toArrow_safe env s off len none h
  split
  · rename_i e; rw [e] at h1; exact ⟨h1.1, by simp⟩
  · rename_i e; rw [e] at h1; exact ⟨h1.1, by simp⟩
  · rename_i e; rw [e] at h1; exact ⟨h1.1, by simpa using h1.2⟩

theorem makeHeader_safe (env : Env) {cols : Cols} (first len : Int) (h : SafeCols env cols) :
    SafeRes env (makeHeader env cols first len) := by
  unfold makeHeader
  split
  · have h1 := onColumns_safe (firstText_safe env first) (sortedKeys cols) h
    split
    · rename_i e; rw [e] at h1; exact .error (by simpa using h1.1)
    · rename_i e; exact .ok (h1.2 _ e)
  · have h1 := onColumns_safe (textsOf_safe env first len) (sortedKeys cols) h
    split
    · rename_i e; rw [e] at h1; exact .error (by simpa using h1.1)
    · rename_i e; exact .ok (h1.2 _ e)

theorem findPattern_safe (env : Env) (f : Str → Bool) (size : Int) : ∀ (ks : List Int) {cols : Cols},
    SafeCols env cols → SafeRes env (findPattern env f size cols ks)
  | [], _, h => .ok h
  | k :: ks, cols, h => by
    have h1 := onColumn_safe (textsOf_safe env 0 size) h k
    rw [findPattern]
    split
    · rename_i e; rw [e] at h1; exact .error (by simpa using h1.1)
    · rename_i e
      split
      · exact findPattern_safe env f size ks (h1.2 _ e)
      · exact .ok (h1.2 _ e)

theorem findHeader_safe (env : Env) (search : Str → Option (Str → Bool)) {cols : Cols} (size : Int) (l : Lookup)
    (h : SafeCols env cols) : SafeRes env (findHeader env search cols size l) := by
  cases l with
  | none => exact .ok h
  | column k =>
    have h1 := onColumn_safe (textsOf_safe env 0 size) h k
    rw [findHeader]
    split
    · rename_i e; rw [e] at h1; exact .error (by simpa using h1.1)
    · rename_i e
      split
      · exact .ok (h1.2 _ e)
      · exact .ok (h1.2 _ e)
  | pattern p =>
    rw [findHeader]
    split
    · exact .error (by simp)
    · exact findPattern_safe env _ size _ h

theorem headerOf_safe (env : Env) {cols : Cols} (first : Int) (a : HeaderArg) (h : SafeCols env cols) :
    SafeRes env (headerOf env cols first a) := by
  cases a with
  | rows n =>
    rw [headerOf]
    split
    · have h1 := makeHeader_safe env first n h
      split
      · rename_i e; rw [e] at h1; exact .error (by simpa using h1.1)
      · rename_i e; exact .ok (h1.2 _ e)
    · exact .ok h
  | names l =>
    rw [headerOf]
    split
    · exact .error (by simp)
    · exact .ok h

theorem keysWhere_inBounds {test : Str → Py Bool} (h : ∀ s, InBounds (test s)) : ∀ l, InBounds (keysWhere test l)
  | [] => by simp [keysWhere]
  | (name, k) :: l => by
    have ih := keysWhere_inBounds h l
    have := h name
    rw [keysWhere]
    split
    · simp_all
    · split <;> simp_all

theorem anyMatch_inBounds {m : Str → Str → Py Bool} (h : ∀ p s, InBounds (m p s)) : ∀ l s, InBounds (anyMatch m l s)
  | [], s => by simp [anyMatch]
  | p :: l, s => by
    have ih := anyMatch_inBounds h l s
    have := h p s
    rw [anyMatch]
    split
    · simp_all
    · simp
    · exact ih

theorem filterKeys_inBounds {m : Str → Str → Py Bool} (h : ∀ p s, InBounds (m p s)) (header : List Str) (keys : List Int)
    (f : RowFilters) : InBounds (filterKeys m header keys f) := by
  cases f with
  | pattern p =>
    rw [filterKeys]
    split
    · simp
    · exact keysWhere_inBounds (h p) _
  | patterns l => exact keysWhere_inBounds (anyMatch_inBounds h l) _
  | _ => simp [filterKeys]

theorem foldBools_inBounds : ∀ (l : List (RowOp × List Bool)) (acc : List Bool), InBounds (foldBools acc l)
  | [], acc => by simp [foldBools]
  | (op, b) :: l, acc => by
    have ih := foldBools_inBounds l
    rw [foldBools]
    unfold zipBools
    split
    · rename_i e
      split at e
      · simp at e
      · injection e with e; subst e; simp
    · exact ih _

theorem combineFilters_inBounds (s : Strategy) : ∀ l : List (List Bool), InBounds (combineFilters s l)
  | [] => by simp [combineFilters]
  | [b] => by simp [combineFilters]
  | b :: b' :: bs => by
    cases s with
    | ops l =>
      simp only [combineFilters]
      split
      · simp
      · split
        · simp
        · exact foldBools_inBounds _ _
    | bad => simp [combineFilters]
    | or => exact foldBools_inBounds _ _
    | and => exact foldBools_inBounds _ _

theorem rowMask_safe (env : Env) {cols : Cols} (filters : List Int) (s : Strategy) (off len : Int)
    (h : SafeCols env cols) : SafeRes env (rowMask env cols filters s off len) := by
  unfold rowMask
  split
  · exact .ok h
  · have h1 := onColumns_safe (presence_safe env off len) filters h
    split
    · rename_i e; rw [e] at h1; exact .error (by simpa using h1.1)
    · rename_i cols' bs e
      have h2 := combineFilters_inBounds s bs
      split
      · rename_i e; rw [e] at h2; exact .error (by simpa using h2)
      · split
        · exact .error (by simp)
        · exact .ok (h1.2 _ e)

theorem castEach_inBounds {A D : Type} (lib : Lib A D) : ∀ l, InBounds (castEach lib l)
  | [] => by simp [castEach]
  | (a, none) :: l => by
    have ih := castEach_inBounds lib l
    rw [castEach]
    split <;> simp_all
  | (a, some d) :: l => by
    have ih := castEach_inBounds lib l
    have h1 : InBounds (castOne lib a d) := by
      unfold castOne
      repeat' split
      all_goals simp
    rw [castEach]
    split
    · simp_all
    · split <;> simp_all

theorem applyDtypes_inBounds {A D : Type} (lib : Lib A D) (header : List Str) (arrays : List A) (d : DtypesArg D) :
    InBounds (applyDtypes lib header arrays d) := by
  cases d with
  | none => simp [applyDtypes]
  | single d => exact castEach_inBounds lib _
  | mapping l => exact castEach_inBounds lib _
  | sequence l =>
    rw [applyDtypes]
    split
    · simp
    · exact castEach_inBounds lib _

theorem makeTable_inBounds {A D : Type} (lib : Lib A D) (names : List Str) (arrays : List A) :
    InBounds (makeTable lib names arrays) := by
  unfold makeTable
  repeat' split
  all_goals simp

theorem readColumns_inBounds {A D : Type} (env : Env) (lib : Lib A D) (search : Str → Option (Str → Bool))
    (reMatch : Str → Str → Py Bool) (hre : ∀ p s, InBounds (reMatch p s)) (args : ReadArgs D) (cols : Cols)
    (h : SafeCols env cols) : InBounds (readColumns env lib search reMatch args cols) := by
  unfold readColumns
  split
  · rename_i e
    cases cols with
    | nil => rw [maxLen] at e; injection e with e; subst e; simp
    | cons p ps => rw [maxLen] at e; simp at e
  · have h1 := findHeader_safe env search args.lookupSize args.lookup h
    split
    · rename_i e; rw [e] at h1; simpa using h1.1
    · rename_i cols1 first e
      have s1 := h1.2 _ e
      split
      · simp
      · have h2 := headerOf_safe env first args.header s1
        split
        · rename_i e; rw [e] at h2; simpa using h2.1
        · rename_i cols2 height names e
          have s2 := h2.2 _ e
          have h3 := filterKeys_inBounds hre names (sortedKeys cols2) args.filters
          split
          · rename_i e; rw [e] at h3; simpa using h3
          · rename_i filters e
            simp only
            have h4 := fun off len => rowMask_safe env filters args.strategy off len s2
            split
            · rename_i e; intro h; injection h with h; subst h; exact (h4 _ _).1 e
            · rename_i cols3 mask e
              have s3 := (h4 _ _).2 _ e
              have h5 := fun off len => onColumns_safe (f := fetchWith env off len mask)
                (fun s hs => toArrow_safe env s off len mask hs) (sortedKeys cols3) s3
              split
              · rename_i e; intro h; injection h with h; subst h; exact (h5 _ _).1 e
              · rename_i fetched e
                have h6 := applyDtypes_inBounds lib names (fetched.map lib.ofFetched) args.dtypes
                split
                · rename_i e; rw [e] at h6; simpa using h6
                · exact makeTable_inBounds _ _ _

theorem collect_safe (env : Env) (fresh : Series) (hf : SafeSeries env fresh) : ∀ (cells : List Cell) (cols : Cols),
    (∀ c ∈ cells, RefFits env fresh.binary fresh.shared.length c.xdt c.val) →
    (∀ p ∈ cols, SafeSeries env p.2 ∧ SameSheet p.2 fresh) →
    InBounds (collect env fresh cols cells) ∧ ∀ r, collect env fresh cols cells = .ok r → SafeCols env r
  | [], cols, _, h => ⟨by simp [collect], fun r hr => by
      rw [collect] at hr; injection hr with hr; subst hr; exact fun p hp => (h p hp).1⟩
  | c :: cs, cols, hc, h => by
    have ih := collect_safe env fresh hf cs
    have hcs : ∀ c ∈ cs, RefFits env fresh.binary fresh.shared.length c.xdt c.val := fun c h => hc c (by simp [h])
    have h1 : InBounds (addCell env fresh cols c) ∧ ∀ r, addCell env fresh cols c = .ok r →
        ∀ p ∈ r, SafeSeries env p.2 ∧ SameSheet p.2 fresh := by
      unfold addCell
      split
      · have h2 := add_safe env fresh c hf (hc c (by simp))
        split
        · rename_i s e
          refine ⟨by simp, fun r hr => ?_⟩
          injection hr with hr; subst hr
          intro p hp
          simp only [List.mem_append, List.mem_singleton] at hp
          rcases hp with hp | hp
          · exact h p hp
          · subst hp; exact h2.2 s e
        · rename_i e; rw [e] at h2; exact ⟨by simpa using h2.1, by simp⟩
      · rename_i p hp
        obtain ⟨g1, g2⟩ := h p (List.mem_of_find?_eq_some hp)
        have h2 := add_safe env p.2 c g1 (by rw [g2.1, g2.2]; exact hc c (by simp))
        split
        · rename_i s e
          obtain ⟨k1, k2⟩ := h2.2 s e
          refine ⟨by simp, fun r hr => ?_⟩
          injection hr with hr; subst hr
          intro q hq
          obtain ⟨q', hq', rfl⟩ := List.mem_map.mp hq
          split
          · exact ⟨k1, k2.1.trans g2.1, k2.2.trans g2.2⟩
          · exact h q' hq'
        · rename_i e; rw [e] at h2; exact ⟨by simpa using h2.1, by simp⟩
    rw [collect]
    split
    · rename_i cols' e; exact ih cols' hcs (h1.2 _ e)
    · rename_i e; rw [e] at h1; exact ⟨by simpa using h1.1, by simp⟩

theorem readCells_inBounds {A D : Type} (env : Env) (lib : Lib A D) (search : Str → Option (Str → Bool))
    (reMatch : Str → Str → Py Bool) (hre : ∀ p s, InBounds (reMatch p s)) (args : ReadArgs D) (shared : List (Option Str))
    (binary : Bool) (o : ConcatOpts) (cells : List Cell)
    (h : ∀ c ∈ cells, RefFits env binary shared.length c.xdt c.val) :
    InBounds (readCells env lib search reMatch args { shared := shared, binary := binary, opts := o } cells) := by
  unfold readCells
  have h1 := collect_safe env { shared := shared, binary := binary, opts := o } ⟨by simp, by simp⟩ cells [] h (by simp)
  split
  · rename_i e; rw [e] at h1; simpa using h1.1
  · rename_i cols e; exact readColumns_inBounds env lib search reMatch hre args cols (h1.2 _ e)

/-! ## The parts -/

theorem selectSheet_inBounds (sheets : List (Str × Str)) (a : SheetArg) : InBounds (selectSheet sheets a) := by
  cases a <;> simp only [selectSheet] <;> repeat' split
  all_goals simp

theorem checkRows_inBounds (a b : Int) : InBounds (checkRows a b) := by
  unfold checkRows
  repeat' split
  all_goals simp

theorem openPart_inBounds {α : Type} (x : Option α) : InBounds (openPart x) := by
  cases x <;> simp [openPart]

theorem attrAt_inBounds (l : List (Str × Str)) (k : Str) : InBounds (attrAt l k) := by
  unfold attrAt
  split <;> simp

theorem sheetNames_inBounds : ∀ (l : List Xml) (d : List (Str × Str)), InBounds (sheetNames d l)
  | [], d => by simp [sheetNames]
  | .start tag attrs :: l, d => by
    rw [sheetNames]
    split
    · split
      · exact sheetNames_inBounds l _
      · simp
    · exact sheetNames_inBounds l _
  | .text _ :: l, d => by rw [sheetNames]; exact sheetNames_inBounds l _; simp
  | .close _ :: l, d => by rw [sheetNames]; exact sheetNames_inBounds l _; simp

theorem joinSheets_inBounds (files : List (Str × Str)) : ∀ (l d : List (Str × Str)), InBounds (joinSheets files d l)
  | [], d => by simp [joinSheets]
  | (a, b) :: l, d => by
    rw [joinSheets]
    split
    · simp
    · exact joinSheets_inBounds files l _

theorem xlsxSheets_inBounds (rels : List Relationship) (doc : XmlDoc) : InBounds (xlsxSheets rels doc) := by
  unfold xlsxSheets
  have := sheetNames_inBounds doc.events []
  split
  · simp_all
  · split
    · simp
    · exact joinSheets_inBounds _ _ _

theorem stylesXml_inBounds : ∀ (l : List Xml) (fms : List (Str × Str)) (xfs : List Str), InBounds (stylesXml fms xfs l)
  | [], _, _ => by simp [stylesXml]
  | .start tag attrs :: l, fms, xfs => by
    rw [stylesXml]
    split
    · split
      · exact stylesXml_inBounds l _ _
      · simp
    · split
      · have := attrAt_inBounds attrs attNumFmtId
        split
        · exact stylesXml_inBounds l _ _
        · simp_all
      · exact stylesXml_inBounds l _ _
  | .text _ :: l, _, _ => by rw [stylesXml]; exact stylesXml_inBounds l _ _; simp
  | .close _ :: l, _, _ => by rw [stylesXml]; exact stylesXml_inBounds l _ _; simp

theorem xlsxFormats_inBounds (toInt : Str → Option Int) (f : XlsxFile) : InBounds (f.formats toInt) := by
  unfold XlsxFile.formats
  have := openPart_inBounds f.styles
  split
  · simp_all
  · rename_i d _
    unfold xlsxStyles
    have := stylesXml_inBounds d.events [] []
    split
    · simp_all
    · repeat' split
      all_goals simp

theorem xlsxStrings_inBounds (isNull : Str → Bool) (f : XlsxFile) : InBounds (f.strings isNull) := by
  unfold XlsxFile.strings
  have := openPart_inBounds f.shared
  split
  · simp_all
  · unfold xlsxShared
    split <;> simp

theorem unpackI_inBounds (b : Bytes) : InBounds (unpackI b) := by
  unfold unpackI
  split <;> simp

theorem inBounds_bind {α β : Type} {x : Py α} {f : α → Py β} (h : InBounds x) (hf : ∀ a, InBounds (f a)) :
    InBounds (x >>= f) := by
  cases x with
  | error e => simpa [bind, Except.bind] using h
  | ok a => exact hf a

theorem wordsLE_inBounds : ∀ b : Bytes, InBounds (wordsLE b)
  | [] => by simp [wordsLE]
  | [_] => by simp [wordsLE]
  | a :: b :: l => by
    have := wordsLE_inBounds l
    rw [wordsLE]
    exact inBounds_bind this fun _ => by simp

theorem wordsBE_inBounds : ∀ b : Bytes, InBounds (wordsBE b)
  | [] => by simp [wordsBE]
  | [_] => by simp [wordsBE]
  | a :: b :: l => by
    have := wordsBE_inBounds l
    rw [wordsBE]
    exact inBounds_bind this fun _ => by simp

theorem decodeWords_inBounds : ∀ l : List Nat, InBounds (decodeWords l)
  | [] => by simp [decodeWords]
  | [w] => by
    unfold decodeWords
    simp only
    split
    · simp
    · split
      · simp
      · exact inBounds_bind (decodeWords_inBounds []) fun _ => by simp
  | w :: v :: l => by
    have h1 := decodeWords_inBounds l
    have h2 := decodeWords_inBounds (v :: l)
    unfold decodeWords
    simp only
    split
    · split
      · exact inBounds_bind h1 fun _ => by simp
      · simp
    · split
      · simp
      · exact inBounds_bind h2 fun _ => by simp

theorem decodeUtf16_inBounds (b : Bytes) : InBounds (decodeUtf16 b) := by
  unfold decodeUtf16
  split
  · exact inBounds_bind (wordsLE_inBounds _) decodeWords_inBounds
  · exact inBounds_bind (wordsBE_inBounds _) decodeWords_inBounds
  · exact inBounds_bind (wordsLE_inBounds _) decodeWords_inBounds

theorem xstrLoad_inBounds (io : Bytes) : InBounds (xstrLoad io) := by
  unfold xstrLoad
  refine inBounds_bind (unpackI_inBounds _) fun n => ?_
  simp only
  split
  · simp
  · exact inBounds_bind (decodeUtf16_inBounds _) fun _ => by simp

theorem unpackII_inBounds (b : Bytes) : InBounds (unpackII b) := by
  unfold unpackII
  split
  · exact inBounds_bind (unpackI_inBounds _) fun _ => inBounds_bind (unpackI_inBounds _) fun _ => by simp
  · simp

theorem bundleLoadr_inBounds (b : Bytes) : InBounds (bundleLoadr b) := by
  unfold bundleLoadr
  exact inBounds_bind (unpackII_inBounds _) fun _ => inBounds_bind (xstrLoad_inBounds _) fun _ =>
    inBounds_bind (xstrLoad_inBounds _) fun _ => by simp

theorem xlsbSheetsFrom_inBounds (rels : List Relationship) : ∀ (l : List Record) (d : List (Str × Str)),
    InBounds (xlsbSheetsFrom rels d l)
  | [], d => by simp [xlsbSheetsFrom]
  | r :: l, d => by
    have := bundleLoadr_inBounds r.data
    rw [xlsbSheetsFrom]
    split
    · simp_all
    · split
      · simp
      · exact xlsbSheetsFrom_inBounds rels l _

theorem packH_inBounds (n : Nat) : InBounds (packH n) := by
  unfold packH; split <;> simp

theorem packI_inBounds (n : Nat) : InBounds (packI n) := by
  unfold packI; split <;> simp

theorem xfsFrom_inBounds : ∀ (l : List Record) (i : Nat), InBounds (xfsFrom i l)
  | [], i => by simp [xfsFrom]
  | r :: l, i => by
    have h1 := packH_inBounds i
    have h2 := xfsFrom_inBounds l
    rw [xfsFrom]
    split
    · exact h2 _
    · split
      · simp_all
      · split
        · rename_i e; intro h; injection h with h; subst h; exact h2 _ e
        · simp

theorem fmsOf_inBounds : ∀ l : List Record, InBounds (fmsOf l)
  | [] => by simp [fmsOf]
  | r :: l => by
    have h1 := decodeUtf16_inBounds (r.data.drop 2)
    have h2 := fmsOf_inBounds l
    rw [fmsOf]
    split
    · simp_all
    · split <;> simp_all

theorem builtinStyles_inBounds : ∀ l : List (Bytes × Bytes), InBounds (builtinStyles l)
  | [] => by simp [builtinStyles]
  | (k, y) :: l => by
    have h2 := builtinStyles_inBounds l
    unfold builtinStyles
    cases y with
    | nil => simp
    | cons b y =>
      simp only
      split <;> simp_all

theorem xlsbTemporal_inBounds (f : XlsbFile) : InBounds f.temporal := by
  unfold XlsbFile.temporal
  have := openPart_inBounds f.styles
  split
  · simp_all
  · rename_i b _
    unfold xlsbStyles
    have h1 := xfsFrom_inBounds (scanBiff (some [47]) b) 0
    split
    · simp_all
    · rename_i xfs _
      have h2 := fmsOf_inBounds (scanBiff (some [44]) b)
      split
      · simp_all
      · have h3 := builtinStyles_inBounds xfs
        split <;> simp_all

theorem sharedFrom_inBounds (isNull : Str → Bool) : ∀ (l : List Record) (i : Nat), InBounds (sharedFrom isNull i l)
  | [], i => by simp [sharedFrom]
  | r :: l, i => by
    have h0 : InBounds (sstText r.data) := by
      have h1 := unpackI_inBounds (pySlice r.data 1 5)
      unfold sstText
      split
      · simp_all
      · exact decodeUtf16_inBounds _
    have h2 := sharedFrom_inBounds isNull l (i + 1)
    rw [sharedFrom]
    split
    · simp_all
    · rename_i y _
      have h3 : InBounds (if isNull y then (packI i).map fun k => [k] else .ok []) := by
        split
        · exact inBounds_map (packI_inBounds i)
        · simp
      split
      · rename_i e; intro h; injection h with h; subst h; exact h3 e
      · split
        · rename_i e; intro h; injection h with h; subst h; exact h2 e
        · simp

theorem xlsbStrings_inBounds (isNull : Str → Bool) (f : XlsbFile) : InBounds (f.strings isNull) := by
  unfold XlsbFile.strings
  have := openPart_inBounds f.shared
  split
  · simp_all
  · exact sharedFrom_inBounds isNull _ 0

theorem xlsbCell_inBounds (styles : List Bytes) (isNull : Str → Bool) (ns : List Bytes) (sc : List Int) (r : Record) :
    InBounds (xlsbCell styles isNull ns sc r) := by
  unfold xlsbCell
  have h1 := unpackI_inBounds (pySlice r.data 0 4)
  have h2 := unpackI_inBounds (pySlice r.data 8 12)
  have h3 := fun j => decodeUtf16_inBounds (pySlice r.data 12 j)
  split
  · simp_all
  · simp only
    split
    · simp
    · split
      · split
        · simp_all
        · split
          · rename_i e; intro h; injection h with h; subst h; exact h3 _ e
          · split <;> simp
      · repeat' split
        all_goals simp

theorem iterXlsb_inBounds (styles : List Bytes) (isNull : Str → Bool) (nulls : Bool → List Bytes) (o : SheetArgs) :
    ∀ (l : List Record) (st : XlsbState), InBounds (iterXlsb styles isNull nulls o l st)
  | [], st => by simp [iterXlsb]
  | r :: l, st => by
    have ih := iterXlsb_inBounds styles isNull nulls o l
    rw [iterXlsb]
    split
    · simp only
      generalize (if (!st.empty || o.keepEmpty) = true then st.row + 1 else st.row) = row
      split
      · simp
      · split
        · rename_i e; intro h; injection h with h; subst h; exact ih _ e
        · simp
    · split
      · exact ih _
      · split
        · simp
        · have h1 := xlsbCell_inBounds styles isNull (nulls st.seen) o.skipCols r
          split
          · simp_all
          · exact ih _
          · split
            · rename_i e; intro h; injection h with h; subst h; exact ih _ e
            · simp

end Rxls
