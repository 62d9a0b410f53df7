import Verif.Model.Xlsx

/-!
# Packages and XML documents as their standards describe them

Part names as in ECMA-376 part 2 (relationship targets are resolved against the part that has the relationship),
element names as in "Namespaces in XML".
-/

namespace Rxls

/-- Split at every `/`. -/
def slashSegments : Str → List Str
  | [] => [[]]
  | c :: s =>
    if c = '/' then [] :: slashSegments s
    else
      match slashSegments s with
      | [] => [[c]]
      | g :: gs => (c :: g) :: gs

/-- Join with `/`. -/
def joinSegments : List Str → Str
  | [] => []
  | [g] => g
  | g :: gs => g ++ '/' :: joinSegments gs

/-- Follow the segments of a reference from a directory: `.` stays, `..` goes up. -/
def followSegments : List Str → List Str → List Str
  | dir, [] => dir
  | dir, g :: gs =>
    if g = ['.'] then followSegments dir gs
    else if g = ['.', '.'] then followSegments dir.dropLast gs
    else followSegments (dir ++ [g]) gs

/-- The part a target names when it stands in the relationships of `xl/workbook.xml` or `xl/workbook.bin`. -/
def targetPart : Str → Str
  | '/' :: s => joinSegments (followSegments [] (slashSegments s))
  | s => joinSegments (followSegments [['x', 'l']] (slashSegments s))

/-- A target inside the directory of the workbook: relative, without `.` and `..`. -/
def PlainTarget (s : Str) : Prop := s.head? ≠ some '/' ∧ ['.'] ∉ slashSegments s ∧ ['.', '.'] ∉ slashSegments s

/-- Name of an element or attribute without its prefix. -/
def localName (s : Str) : Str := (s.reverse.takeWhile (· ≠ ':')).reverse

/-- The elements XLSX reading is about, and their attributes. -/
def knownTags : List Str := [tagC, tagV, tagRow, tagSi, tagXf, tagNumFmt, tagSheet]

@[inherit_doc knownTags] def knownAttrs : List Str :=
  [attR, attT, attS, attXfId, attNumFmtId, attFormatCode, attRId, attName]

/-- Two events that differ only in what XLSX reading is not about: the names of other elements, their attributes, and
other attributes or the order of attributes of the known elements. -/
inductive Xml.Alike : Xml → Xml → Prop
  | start (t : Str) (a a' : List (Str × Str)) (h : ∀ k ∈ knownAttrs, attrGet a k = attrGet a' k) :
    Alike (.start t a) (.start t a')
  | other (t t' : Str) (a a' : List (Str × Str)) (h : t ∉ knownTags) (h' : t' ∉ knownTags) :
    Alike (.start t a) (.start t' a')
  | text (s : Str) : Alike (.text s) (.text s)
  | close (t : Str) : Alike (.close t) (.close t)
  | closeOther (t t' : Str) (h : t ∉ knownTags) (h' : t' ∉ knownTags) : Alike (.close t) (.close t')

/-- Documents with such events in the same order. -/
def XmlDoc.Alike (d d' : XmlDoc) : Prop := List.Forall₂ Xml.Alike d.events d'.events ∧ d.bad = d'.bad

/-- A worksheet without everything that stands outside its cells, except the row tags.  The first argument says
whether the events start inside a cell. -/
def withoutOther : Bool → List Xml → List Xml
  | _, [] => []
  | true, e :: es => e :: withoutOther (e ≠ .close tagC) es
  | false, .start t a :: es =>
    if t = tagC then .start t a :: withoutOther true es
    else if t = tagRow then .start t a :: withoutOther false es
    else withoutOther false es
  | false, .text _ :: es => withoutOther false es
  | false, .close t :: es => if t = tagRow ∨ t = tagC then .close t :: withoutOther false es else withoutOther false es

end Rxls
