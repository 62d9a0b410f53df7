import Verif.Lemmas.MemoryRead
import Verif.Props.Options
import Verif.Props.Phonetic
import Verif.Props.Blanks

/-! # C115: memory outside the buffers -/

namespace Rxls

/-- C115.  Following the references of a column stays inside the table exactly when each is the number of a string. -/
theorem C115_lookup_exact (table : List (Option Str)) (refs : List Nat) :
    takeShared table refs = .error .undefinedBehaviour ↔ ∃ i ∈ refs, table.length ≤ i := by
  constructor
  · intro h
    by_contra hc
    push Not at hc
    exact takeShared_inBounds hc h
  · rintro ⟨i, hi, hl⟩
    unfold takeShared
    induction refs with
    | nil => simp at hi
    | cons j js ih =>
      rw [List.mapM_cons]
      simp only [bind, Except.bind, pure, Except.pure]
      by_cases hj : j < table.length
      · rw [List.getElem?_eq_getElem hj]
        simp only
        have : i ∈ js := by
          rcases List.mem_cons.mp hi with h | h
          · subst h; exact absurd hj (Nat.not_lt.mpr hl)
          · exact h
        rw [ih this]
      · rw [List.getElem?_eq_none (Nat.not_lt.mp hj)]

example : takeShared [some ['a'], none] [1, 0] = .ok [none, some ['a']] ∧
    takeShared [some ['a'], none] [1, 2] = .error .undefinedBehaviour := by decide

/-- C115.  Making the column of four-byte references stays inside its buffer exactly when no payload is short: the buffer is
taken to hold as many numbers as there are cells. -/
theorem C115_payload_exact (payloads : List Bytes) (h4 : ∀ b ∈ payloads, b.length ≤ 4) :
    dataToArrow 4 (payloads.map .bytes) = .error .undefinedBehaviour ↔ ∃ b ∈ payloads, b.length < 4 := by
  have key : ∀ l : List Bytes, (∀ b ∈ l, b.length ≤ 4) → l.flatten.length ≤ 4 * l.length ∧
      (l.flatten.length < 4 * l.length ↔ ∃ b ∈ l, b.length < 4) := by
    intro l hl
    induction l with
    | nil => simp
    | cons b l ih =>
      obtain ⟨i1, i2⟩ := ih fun b hb => hl b (by simp [hb])
      have hb := hl b (by simp)
      simp only [List.flatten_cons, List.length_append, List.length_cons, List.mem_cons, exists_eq_or_imp]
      refine ⟨by omega, ?_⟩
      rw [← i2]
      omega
  unfold dataToArrow
  rw [joinRaw_bytes]
  simp only [List.length_map]
  rw [← (key payloads h4).2]
  split <;> simp_all

example : dataToArrow 4 [.bytes [1, 0, 0, 0], .bytes [2, 0, 0, 0]] = .ok [1, 2] ∧
    dataToArrow 4 [.bytes [1, 0, 0, 0], .bytes [2, 0]] = .error .undefinedBehaviour := by decide

theorem hasBit_string (t : Nat) : hasBit t TYPE_STRING = t.testBit 4 := hasBit_pow t 4
theorem hasBit_shared (t : Nat) : hasBit t REPR_SHARED = t.testBit 0 := hasBit_pow t 0

/-- C115, XLSX.  If every reference of the delivered cells is the number of a shared string, `read` stays inside the memory
of its buffers, whatever the arguments and whatever else is wrong with the file: it returns a table or raises.  Missing for the
full claim: references beyond the table, for which the code reads foreign memory (`C115_memory_finding`). -/
theorem C115_xlsx_partial {A D : Type} (env : Env) (lib : Lib A D) (search : Str → Option (Str → Bool))
    (reMatch : Str → Str → Py Bool) (hre : ∀ p s, InBounds (reMatch p s)) (toInt : Str → Option Int) (isNull : Str → Bool)
    (o : ConcatOpts) (ia : IterArgs) (args : ReadArgs D) (f : XlsxFile)
    (h : ∀ t, f.strings isNull = .ok t → RefsXlsx env.pyInt t.1.length (f.cellsOf toInt isNull ia)) :
    readXlsx env lib search reMatch toInt isNull o ia args f ≠ .error .undefinedBehaviour := by
  unfold XlsxFile.cellsOf at h
  unfold readXlsx
  have g1 := xlsxSheets_inBounds f.rels f.workbook
  split
  · simp_all
  · rename_i sheets e1
    rw [e1] at h
    simp only at h
    have g2 := selectSheet_inBounds sheets ia.sheet
    split
    · simp_all
    · rename_i path e2
      rw [e2] at h
      simp only at h
      have g3 := checkRows_inBounds ia.skipRows ia.takeRows
      split
      · simp_all
      · rename_i skip take e3
        have hct := checkRows_toNat e3
        have g4 := openPart_inBounds (f.parts path)
        split
        · simp_all
        · rename_i doc e4
          have e4' : f.parts path = some doc := by
            cases hp : f.parts path with
            | none => rw [hp] at e4; simp [openPart] at e4
            | some d => rw [hp] at e4; simp only [openPart, Except.ok.injEq] at e4; rw [e4]
          have g5 := xlsxFormats_inBounds toInt f
          split
          · simp_all
          · rename_i styles e5
            rw [e4', e5] at h
            simp only at h
            simp only
            split
            · simp
            · have g6 := xlsxStrings_inBounds isNull f
              split
              · simp_all
              · rename_i shared nulls e6
                have h' := h _ e6
                apply readCells_inBounds env lib search reMatch hre
                intro c hc hs hsh
                rw [hasBit_string] at hs
                rw [hasBit_shared] at hsh
                rw [if_neg (by simp)]
                rw [hct.1, hct.2] at hc
                exact h' c hc ⟨hs, hsh⟩

/-- C115, XLSB: the same, if the references are also complete. -/
theorem C115_xlsb_partial {A D : Type} (env : Env) (lib : Lib A D) (search : Str → Option (Str → Bool))
    (reMatch : Str → Str → Py Bool) (hre : ∀ p s, InBounds (reMatch p s)) (isNull : Str → Bool)
    (o : ConcatOpts) (ia : IterArgs) (args : ReadArgs D) (f : XlsbFile)
    (h : ∀ t, f.strings isNull = .ok t → RefsXlsb t.1.length (f.cellsOf isNull ia)) :
    readXlsb env lib search reMatch isNull o ia args f ≠ .error .undefinedBehaviour := by
  unfold XlsbFile.cellsOf at h
  unfold readXlsb
  have g1 := xlsbSheetsFrom_inBounds f.rels (scanBiff (some [412]) f.workbook) []
  split
  · rename_i e he
    intro hc
    injection hc with hc
    cases e <;> simp [leaveGenerator] at hc
    exact g1 he
  · rename_i sheets e1
    rw [e1] at h
    simp only at h
    have g2 := selectSheet_inBounds sheets ia.sheet
    split
    · simp_all
    · rename_i path e2
      rw [e2] at h
      simp only at h
      have g3 := checkRows_inBounds ia.skipRows ia.takeRows
      split
      · simp_all
      · rename_i skip take e3
        have hct := checkRows_toNat e3
        have g4 := openPart_inBounds (f.parts path)
        split
        · simp_all
        · rename_i part e4
          have e4' : f.parts path = some part := by
            cases hp : f.parts path with
            | none => rw [hp] at e4; simp [openPart] at e4
            | some d => rw [hp] at e4; simp only [openPart, Except.ok.injEq] at e4; rw [e4]
          have g5 := xlsbTemporal_inBounds f
          split
          · simp_all
          · rename_i styles e5
            have g6 := xlsbStrings_inBounds isNull f
            split
            · simp_all
            · rename_i shared nulls e6
              have h' := h _ e6
              rw [e4', e5, e6] at h'
              simp only at h'
              rw [← hct.1, ← hct.2] at h'
              have g7 := iterXlsb_inBounds styles isNull (fun seen => if seen then nulls else [])
                ⟨skip, take, ia.keepEmpty, ia.skipCols⟩ (scanBiff (some sheetIds) part) {}
              change InBounds (xlsbSheet styles isNull (fun seen => if seen then nulls else [])
                ⟨skip, take, ia.keepEmpty, ia.skipCols⟩ part) at g7
              split
              · rename_i e; rw [e] at g7; simpa using g7
              · rename_i evs e7
                rw [e7] at h'
                simp only at h'
                apply readCells_inBounds env lib search reMatch hre
                intro c hc hs hsh
                rw [hasBit_string] at hs
                rw [hasBit_shared] at hsh
                rw [if_pos rfl]
                obtain ⟨b0, b1, b2, b3, hv, hb⟩ := h' c hc ⟨hs, hsh⟩
                refine ⟨_, hv, rfl, ?_⟩
                simp only [leNat]
                omega

/-- C115, the file as it is. -/
theorem C115_file_partial {A D : Type} (env : Env) (lib : Lib A D) (search : Str → Option (Str → Bool))
    (reMatch : Str → Str → Py Bool) (hre : ∀ p s, InBounds (reMatch p s)) (toInt : Str → Option Int)
    (a : FileArgs D) (p : Package) (h : p.RefsOk env.pyInt toInt a) :
    readFile env lib search reMatch toInt a p ≠ .error .undefinedBehaviour := by
  obtain ⟨h1, h2⟩ := h
  unfold Package.cellsOf at h1 h2
  unfold readFile
  cases e : fileKind p.names with
  | error x =>
    simp only
    unfold fileKind at e
    split at e
    · simp at e
    · split at e
      · simp at e
      · injection e with e; subst e; simp
  | ok k =>
    cases k with
    | xlsx => simp only [e] at h1; exact C115_xlsx_partial env lib search reMatch hre toInt _ _ _ _ _ (h1 trivial)
    | xlsb => simp only [e] at h2; exact C115_xlsb_partial env lib search reMatch hre _ _ _ _ _ (h2 trivial)

/-- The example files with the shared strings `l` (XLSX: `exGuidedRead`), and with a reference whose record is cut off. -/
def exTableReadB (l : List Str) : Py (List Fetched) :=
  (readXlsb demoEnv exLib (fun _ => none) (fun _ _ => .ok false) (fun s => s == ['-']) exConcat {} {}
    { exFile with shared := some (bytesOf (⟨159, []⟩ :: (l.map (sstItem 0 · []) ++ [⟨160, []⟩]))) }).map (·.arrays)
@[inherit_doc exTableReadB] def exCutPart (data : Bytes) : List Record :=
  [⟨129, []⟩, ⟨145, []⟩, ⟨0, [0, 0, 0, 0]⟩, ⟨7, data⟩, ⟨402, []⟩]
@[inherit_doc exTableReadB] def exCutReadB (data : Bytes) : Py (List Fetched) :=
  (readXlsb demoEnv exLib (fun _ => none) (fun _ _ => .ok false) (fun s => s == ['-']) exConcat {} {}
    { exFile with
        parts := fun n => if n = ['x', 'l', '/', 's', '1'] then some (bytesOf (exCutPart data)) else none }).map (·.arrays)

/-- Whole reads that follow their references. -/
example : (exGuidedRead [exSi [['x']], exSi [['y', 'z']]]).map (·[2]?) =
      .ok (some (.arr ⟨.utf8, [some (.str ['q']), none, none, some (.str ['x'])]⟩)) ∧
    (exTableReadB [['x'], ['y', 'z']]).map (·[2]?) =
      .ok (some (.arr ⟨.utf8, [some (.str ['q']), some (.str ['x'])]⟩)) ∧
    exCutReadB [0, 0, 0, 0, 0, 0, 0, 0, 1, 0, 0, 0] = .ok [.arr ⟨.utf8, [some (.str ['y', 'z'])]⟩] := by
  decide +kernel

/-- The theorem used on the example file. -/
example : exReadB {} ≠ .error .undefinedBehaviour := by
  have h : readXlsb demoEnv exLib (fun _ => none) (fun _ _ => .ok false) (fun s => s == ['-']) exConcat {} {} exFile ≠
      .error .undefinedBehaviour := by
    apply C115_xlsb_partial
    · simp
    · intro t ht
      have e1 : exFile.strings (fun s => s == ['-']) = .ok ([some ['x'], some ['y', 'z']], []) := by decide +kernel
      rw [e1] at ht; injection ht with ht; subst ht
      have e2 : ∀ c ∈ exFile.cellsOf (fun s => s == ['-']) {}, c.xdt.testBit 4 = true → c.xdt.testBit 0 = true →
          c.val = .bytes [0, 0, 0, 0] ∨ c.val = .bytes [1, 0, 0, 0] := by decide +kernel
      intro c hc hs
      rcases e2 c hc hs.1 hs.2 with h | h
      · exact ⟨0, 0, 0, 0, h, by decide⟩
      · exact ⟨1, 0, 0, 0, h, by decide⟩
  intro hc
  unfold exReadB at hc
  cases hr : readXlsb demoEnv exLib (fun _ => none) (fun _ _ => .ok false) (fun s => s == ['-']) exConcat {} {} exFile with
  | ok t => rw [hr] at hc; simp [Except.map] at hc
  | error e => rw [hr] at hc; simp only [Except.map, Except.error.injEq] at hc; subst hc; exact h hr

/-- C115, finding: a file whose table of shared strings is shorter than its references say, in either format, and an XLSB
file with a reference whose record ends early, make `read` look at memory outside the table, or outside the buffer of
references; neither is noticed. -/
theorem C115_memory_finding :
    exGuidedRead [exSi [['x']]] = .error .undefinedBehaviour ∧
    exTableReadB [['x']] = .error .undefinedBehaviour ∧
    exCutReadB [0, 0, 0, 0, 0, 0, 0, 0, 1, 0] = .error .undefinedBehaviour := by
  decide +kernel

end Rxls
