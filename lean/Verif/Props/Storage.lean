import Verif.Spec.Storage
import Verif.Props.TakeRows
import Verif.Props.TwoFormats

/-! # C132: how the values are stored does not matter -/

namespace Rxls

theorem forall₂_map {α β γ : Type} {R : α → β → Prop} {f : α → γ} {f' : β → γ} {l : List α} {l' : List β}
    (h : List.Forall₂ R l l') (hf : ∀ x y, R x y → f x = f' y) : l.map f = l'.map f' := by
  induction h with
  | nil => rfl
  | cons hxy _ ih => rw [List.map_cons, List.map_cons, hf _ _ hxy, ih]

theorem sameAs_values {env : Env} {isNull : Str → Bool} {formats formats' : List StyleClass} {shared shared' : List Str}
    {g g' : TGrid} (h : List.Forall₂ (List.Forall₂ (TCell.SameAs env isNull formats formats' shared shared')) g g') :
    g.values env isNull formats shared = g'.values env isNull formats' shared' := by
  refine forall₂_map h fun row row' hr => ?_
  unfold rowValues
  induction hr with
  | nil => rfl
  | @cons c c' l l' hc _ ih =>
    obtain ⟨h1, h2, h3⟩ := hc
    rw [List.filter_cons, List.filter_cons, ← h2]
    cases hb : c.blank isNull with
    | true => simpa using ih
    | false =>
      simp only [Bool.not_false, if_true, List.filterMap_cons, h3 hb, h1]
      rw [ih]

theorem sameAs_values_xlsb {isNull : Str → Bool} {temporal temporal' : List Bytes} {shared shared' : List Str}
    {g g' : Grid} (h : List.Forall₂ (List.Forall₂ (GCell.SameAs isNull temporal temporal' shared shared')) g g') :
    g.values temporal shared isNull = g'.values temporal' shared' isNull := by
  refine forall₂_map h fun row row' hr => ?_
  induction hr with
  | nil => rfl
  | @cons c c' l l' hc _ ih =>
    obtain ⟨h1, h2, h3⟩ := hc
    rw [List.filter_cons, List.filter_cons, ← h2]
    cases hb : c.blank isNull with
    | true => simpa using ih
    | false =>
      simp only [Bool.not_false, if_true, List.map_cons, h3 hb, h1]
      rw [ih]

/-- **C132**, XLSX.  Two files with the same values in the same cells are read alike, however the values are stored, if
conflict resolution is off or a matter of values. -/
theorem C132_xlsx_partial {A D : Type} (env : Env) (lib : Lib A D) (search : Str → Option (Str → Bool))
    (reMatch : Str → Str → Py Bool) (toInt : Str → Option Int) (a : FileArgs D) (k t : Nat)
    (hk : a.iter.skipRows = k) (ht : a.iter.takeRows = t) (ha : a.table.Sensible) (p p' : Package)
    (hp : workbookXml ∈ p.names) (hp' : workbookXml ∈ p'.names) (isNull : Str → Bool)
    (hnull : ∀ s, isNull s = (decide (s ∈ errorTexts) || a.nulls.asks s)) (o : ConcatOpts)
    (ho : o = concatOpts a.conflict a.formats a.precision)
    (formats formats' : List StyleClass) (shared shared' : List Str) (g g' : TGrid)
    (h : p.xlsx.Holds env toInt a.iter.sheet isNull formats shared g)
    (h' : p'.xlsx.Holds env toInt a.iter.sheet isNull formats' shared' g')
    (hsame : List.Forall₂ (List.Forall₂ (TCell.SameAs env isNull formats formats' shared shared')) g g') (V : VGrid)
    (hV : V = (g.values env isNull formats shared).shownXlsx k t a.iter.keepEmpty a.iter.skipCols)
    (hres : V.Resolvable env o g.inline) (hres' : V.Resolvable env o g'.inline)
    (hdata : V.flatten ≠ [] → V.HasData env search a.table o) :
    readFile env lib search reMatch toInt a p = readFile env lib search reMatch toInt a p' := by
  rw [C69_xlsx env lib search reMatch toInt a k t hk ht ha p hp isNull hnull o ho formats shared g h V hV hres hdata,
    C69_xlsx env lib search reMatch toInt a k t hk ht ha p' hp' isNull hnull o ho formats' shared' g' h' V
      (by rw [hV, sameAs_values hsame]) hres' hdata]

/-- **C132**, XLSB: the same. -/
theorem C132_xlsb_partial {A D : Type} (env : Env) (lib : Lib A D) (search : Str → Option (Str → Bool))
    (reMatch : Str → Str → Py Bool) (toInt : Str → Option Int) (a : FileArgs D) (k t : Nat)
    (hk : a.iter.skipRows = k) (ht : a.iter.takeRows = t) (ha : a.table.Sensible) (p p' : Package)
    (hp : workbookXml ∉ p.names) (hp' : workbookXml ∉ p'.names) (hb : workbookBin ∈ p.names) (hb' : workbookBin ∈ p'.names)
    (o : ConcatOpts) (ho : o = concatOpts a.conflict a.formats a.precision)
    (temporal temporal' : List Bytes) (shared shared' : List Str) (g g' : Grid)
    (h : p.xlsb.Holds a.iter.sheet a.nulls.asks temporal shared g)
    (h' : p'.xlsb.Holds a.iter.sheet a.nulls.asks temporal' shared' g')
    (hsame : List.Forall₂ (List.Forall₂ (GCell.SameAs a.nulls.asks temporal temporal' shared shared')) g g') (V : VGrid)
    (hV : V = (g.values temporal shared a.nulls.asks).shownXlsb k t a.iter.keepEmpty a.iter.skipCols)
    (hres : V.Resolvable env o g.inline) (hres' : V.Resolvable env o g'.inline)
    (hdata : V.flatten ≠ [] → V.HasData env search a.table o) :
    readFile env lib search reMatch toInt a p = readFile env lib search reMatch toInt a p' := by
  rw [C69_xlsb env lib search reMatch toInt a k t hk ht ha p hp hb o ho temporal shared g h V hV hres hdata,
    C69_xlsb env lib search reMatch toInt a k t hk ht ha p' hp' hb' o ho temporal' shared' g' h' V
      (by rw [hV, sameAs_values_xlsb hsame]) hres' hdata]

/-! ## Examples -/

/-- RK number and double; shared string, with two tables of them, and text in the cell; constant and formula. -/
example : GCell.SameAs (fun _ => false) [] [] [] [] ⟨3, [0, 0, 0], .rk 0x3FF00000, 2, 0, []⟩
      ⟨3, [7, 0, 0], .real 0x3FF0000000000000, 9, 0, [1, 2]⟩ ∧
    GCell.SameAs (fun _ => false) [] [] [['a'], ['b']] [['b']] ⟨3, [0, 0, 0], .shared 1, 7, 0, []⟩ ⟨3, [0, 0, 0], .shared 0, 7, 0, []⟩ ∧
    GCell.SameAs (fun _ => false) [] [] [['a'], ['b']] [] ⟨3, [0, 0, 0], .shared 1, 7, 0, []⟩ ⟨3, [0, 0, 0], .text ['b'], 6, 0, []⟩ := by
  refine ⟨⟨rfl, rfl, fun _ => by decide +kernel⟩, ⟨rfl, rfl, fun _ => by decide +kernel⟩, ⟨rfl, rfl, fun _ => by decide +kernel⟩⟩

/-- XLSX: other digits of the same number under another number format; a text shared or in the cell. -/
example : TCell.SameAs textEnv (fun _ => false) [.other, .numeric] [.numeric] [['a']] []
      ⟨0, [49], some 1, .plain ['1', '0'], [], []⟩ ⟨0, [49], none, .plain ['1', 'e', '1'], [], []⟩ ∧
    TCell.SameAs textEnv (fun _ => false) [.other, .numeric] [.numeric, .other] [['a']] []
      ⟨0, [49], some 1, .shared 0, [], []⟩ ⟨0, [49], some 1, .plain ['a', ' '], [], []⟩ := by
  refine ⟨⟨rfl, by decide +kernel, fun _ => by decide +kernel⟩, ⟨rfl, by decide +kernel, fun _ => by decide +kernel⟩⟩

/-- What `read` gives for a sheet with these cells. -/
def exStoredRead (conflict : Str) (g : TGrid) : Py (List Fetched) :=
  let sheet : XSheet := ⟨[], g.map fun row => ⟨[], row.map TCell.xml⟩, []⟩
  (readFile textEnv exLib (fun _ => none) (fun _ _ => .ok false) exInt { conflict := conflict }
      ⟨[workbookXml], { exXlsxFile with parts := fun _ => some ⟨sheet.events, false⟩ }, exFile⟩).map (·.arrays)

/-- A date above the text "x": shared, and in its cell. -/
def exStoredShared : TGrid := [[⟨0, [49], some 1, .plain ['4', '0', '0', '0', '0'], [], []⟩], [⟨0, [50], none, .shared 0, [], []⟩]]
def exStoredPlain : TGrid := [[⟨0, [49], some 1, .plain ['4', '0', '0', '0', '0'], [], []⟩], [⟨0, [50], none, .plain ['x'], [], []⟩]]

/-- **C132**, finding: with `conflict_resolve="all"` a text below a date is read if it is in its cell, and raises if it
is a shared string.  Without conflict resolution both are read alike. -/
theorem C132_finding : exStoredRead strAll exStoredShared = .error .arrowNotImplemented ∧
    (exStoredRead strAll exStoredPlain).isOk = true ∧
    exStoredRead strNo exStoredShared = exStoredRead strNo exStoredPlain ∧ (exStoredRead strNo exStoredPlain).isOk = true := by
  decide +kernel

end Rxls
