import Verif.Model.ReadFile
import Verif.Model.XmlText

/-! # `read` on a zip archive -/

namespace Rxls

/-- A zip archive: the entries of its directory with their content, in order.  Compression is not modelled.
(`rxls/reader/xlsx.py:119`.) -/
abbrev Archive := List (Str × Bytes)

/-- `zf.open(name)`: `zipfile` keeps the entries in a dict, so the last one of a name wins.
(`rxls/reader/xlsx.py:135,142,162,209,442`.) -/
def Archive.part (z : Archive) (name : Str) : Option Bytes := ((z.filter fun e => e.1 = name).getLast?).map (·.2)

/-- Names in relationship parts.  (`rxls/rels.py:28-34`.) -/
def tagRelationship : Str := ['R', 'e', 'l', 'a', 't', 'i', 'o', 'n', 's', 'h', 'i', 'p']
@[inherit_doc tagRelationship] def attId : Str := ['I', 'd']
@[inherit_doc tagRelationship] def attType : Str := ['T', 'y', 'p', 'e']
@[inherit_doc tagRelationship] def attTarget : Str := ['T', 'a', 'r', 'g', 'e', 't']

/-- The handler of `Relationship.scan_xml` over the events (`rels.py:24-35`). -/
def relsHandler : List Relationship → List Xml → Py (List Relationship)
  | ret, [] => .ok ret
  | ret, .start tag attrs :: es =>
    if tag = tagRelationship then
      match attrAt attrs attId, attrAt attrs attType, attrAt attrs attTarget with
      | .ok i, .ok t, .ok g => relsHandler (ret ++ [⟨i, lastSegment t, g⟩]) es
      | _, _, _ => .error .keyError
    else relsHandler ret es
  | ret, _ :: es => relsHandler ret es

/-- `Relationship.scan_xml` (`rels.py:21-41`). -/
def scanRels (doc : XmlDoc) : Py (List Relationship) :=
  match relsHandler [] doc.events with
  | .error e => .error e
  | .ok rs => if doc.bad then .error .runtimeError else .ok rs

/-- The names of the parts opened by the readers (`xlsx.py:135,142,162,209`, `xlsb.py:109,112,130,147`). -/
def xlsxRelsName : Str := ['x', 'l', '/', '_', 'r', 'e', 'l', 's', '/', 'w', 'o', 'r', 'k', 'b', 'o', 'o', 'k', '.', 'x', 'm', 'l', '.',
  'r', 'e', 'l', 's']
@[inherit_doc xlsxRelsName] def xlsbRelsName : Str := ['x', 'l', '/', '_', 'r', 'e', 'l', 's', '/', 'w', 'o', 'r', 'k', 'b', 'o', 'o', 'k',
  '.', 'b', 'i', 'n', '.', 'r', 'e', 'l', 's']
@[inherit_doc xlsxRelsName] def xlsxSharedName : Str := ['x', 'l', '/', 's', 'h', 'a', 'r', 'e', 'd', 'S', 't', 'r', 'i', 'n', 'g', 's', '.',
  'x', 'm', 'l']
@[inherit_doc xlsxRelsName] def xlsbSharedName : Str := ['x', 'l', '/', 's', 'h', 'a', 'r', 'e', 'd', 'S', 't', 'r', 'i', 'n', 'g', 's', '.',
  'b', 'i', 'n']
@[inherit_doc xlsxRelsName] def xlsxStylesName : Str := ['x', 'l', '/', 's', 't', 'y', 'l', 'e', 's', '.', 'x', 'm', 'l']
@[inherit_doc xlsxRelsName] def xlsbStylesName : Str := ['x', 'l', '/', 's', 't', 'y', 'l', 'e', 's', '.', 'b', 'i', 'n']

/-- What the two readers find in an archive, given the relationships of its workbook.  `pieces` is pyexpat's text
buffer (see `parseXml`).  (`rxls/reader/common.py:139-151`.) -/
def Archive.package (pieces : Str → List Str) (z : Archive) (rels : List Relationship) : Package where
  names := z.map (·.1)
  xlsx :=
    { rels := rels
      workbook := parsePart pieces ((z.part workbookXml).getD [])
      shared := (z.part xlsxSharedName).map (parsePart pieces)
      styles := (z.part xlsxStylesName).map (parsePart pieces)
      parts := fun n => (z.part n).map (parsePart pieces) }
  xlsb :=
    { rels := rels
      workbook := (z.part workbookBin).getD []
      shared := z.part xlsbSharedName
      styles := z.part xlsbStylesName
      parts := z.part }

/-- The name of the relationship part of the workbook.  (`rxls/reader/xlsx.py:135` and `rxls/reader/xlsb.py:109`.) -/
def Kind.relsName : Kind → Str
  | .xlsx => xlsxRelsName
  | .xlsb => xlsbRelsName

/-- `read` (`common.py:98-339`) on an archive.  The relationships of the workbook are read first (`xlsx.py:135-140`,
`xlsb.py:109-111`). -/
def readArchive {A D : Type} (env : Env) (lib : Lib A D) (search : Str → Option (Str → Bool))
    (reMatch : Str → Str → Py Bool) (toInt : Str → Option Int) (pieces : Str → List Str) (a : FileArgs D) (z : Archive) :
    Py (Table A) :=
  match fileKind (z.map (·.1)) with
  | .error e => .error e
  | .ok kind =>
    match openPart (z.part kind.relsName) with
    | .error e => .error e
    | .ok b =>
      match scanRels (parsePart pieces b) with
      | .error e => .error e
      | .ok rels => readFile env lib search reMatch toInt a (z.package pieces rels)

end Rxls
