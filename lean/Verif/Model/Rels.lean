import Verif.Model.Recs

/-!
# Model of `rxls/rels.py` and of `col_idx` (`rxls/reader/xlsx.py`)

`scan_xml` drives expat.  Expat is outside the repository; the part of it that decides what a
written attribute value is read back as is written out here (`attrValue`), following XML 1.0
sections 2.2 (characters), 3.1 (no `<` in attribute values), 3.3.3 (attribute-value normalisation)
and 4.6 (predefined entities).  The document shape is restricted to what `dump_xml` writes inside a
`Relationships` root; bytes are already decoded to characters (UTF-8 is lossless).
-/

namespace Rxls

/-- `RELS_NS`, `rxls/rels.py:12`. -/
def relsNs : Str := "http://schemas.openxmlformats.org/package/2006/relationships".toList

/-- `class Relationship`, `rxls/rels.py:15-19`. -/
structure Relationship where
  id : Str
  type : Str
  target : Str
  deriving DecidableEq, Repr

/-- Literal parts of the f-string in `dump_xml`, `rxls/rels.py:45` (closing quotes are written
separately below). -/
def kwOpen : Str := "<Relationship Id=\"".toList
@[inherit_doc kwOpen] def kwType : Str := " Type=\"".toList
@[inherit_doc kwOpen] def kwTarget : Str := " Target=\"".toList
@[inherit_doc kwOpen] def kwClose : Str := "/>".toList
/-- Root element tags of a relationship part.  (`rxls/rels.py:12`.) -/
def kwRoot : Str := "<Relationships>".toList
@[inherit_doc kwRoot] def kwEnd : Str := "</Relationships>".toList

/-- `Relationship.dump_xml`, `rxls/rels.py:43-46`: nothing is escaped. -/
def Relationship.dumpXml (r : Relationship) : Str :=
  kwOpen ++ (r.id ++ '"' :: (kwType ++ ((relsNs ++ '/' :: r.type) ++ '"' ::
    (kwTarget ++ (r.target ++ '"' :: kwClose)))))

/-- Characters allowed in XML 1.0 text (section 2.2), as checked by expat.
(library behaviour used at `rxls/rels.py:37-39`.) -/
def xmlChar (c : Char) : Bool :=
  c.toNat == 9 || c.toNat == 10 || c.toNat == 13 ||
    (0x20 ≤ c.toNat && c.toNat ≠ 0xFFFE && c.toNat ≠ 0xFFFF)

/-- Value of a digit in a base up to 16.  (library behaviour used at `rxls/rels.py:37-39`.) -/
def digitVal (base : Nat) (c : Char) : Option Nat :=
  let v :=
    if '0' ≤ c ∧ c ≤ '9' then some (c.toNat - 48)
    else if 'a' ≤ c ∧ c ≤ 'f' then some (c.toNat - 87)
    else if 'A' ≤ c ∧ c ≤ 'F' then some (c.toNat - 55)
    else none
  match v with
  | some d => if d < base then some d else none
  | none => none

/-- Digits of a character reference.  (library behaviour used at `rxls/rels.py:37-39`.) -/
def numVal (base : Nat) : Nat → Str → Option Nat
  | acc, [] => some acc
  | acc, c :: s => match digitVal base c with
    | some d => numVal base (acc * base + d) s
    | none => none

/-- The character with a number; `none` (an expat error) when it is not allowed in XML.
(library behaviour used at `rxls/rels.py:37-39`.) -/
def charRef (n : Nat) : Option Char :=
  if n.isValidChar ∧ xmlChar (Char.ofNat n) = true then some (Char.ofNat n) else none

/-- Meaning of the text between `&` and `;`: a predefined entity or a character reference.  `none`
is an expat error.  (library behaviour used at `rxls/rels.py:37-39`.) -/
def entity (name : Str) : Option Char :=
  if name = ['l', 't'] then some '<'
  else if name = ['g', 't'] then some '>'
  else if name = ['a', 'm', 'p'] then some '&'
  else if name = ['q', 'u', 'o', 't'] then some '"'
  else if name = ['a', 'p', 'o', 's'] then some '\''
  else match name with
    | '#' :: 'x' :: (h :: hs) => (numVal 16 0 (h :: hs)).bind charRef
    | '#' :: (h :: hs) => (numVal 10 0 (h :: hs)).bind charRef
    | _ => none

/-- Split at the first `;`.  (library behaviour used at `rxls/rels.py:37-39`.) -/
def untilSemi : Str → Option (Str × Str)
  | [] => none
  | c :: s => if c = ';' then some ([], s) else (untilSemi s).map fun (a, b) => (c :: a, b)

/-- Expat reading a double-quoted attribute value (the opening quote is already consumed): the
normalised value and the text after the closing quote; `none` is a parse error.  The first argument
bounds the number of steps (one per character at most).  (library behaviour used at `rxls/rels.py:37-39`.) -/
def attrValue : Nat → Str → Option (Str × Str)
  | 0, _ => none
  | _ + 1, [] => none
  | n + 1, c :: s =>
    if c = '"' then some ([], s)
    else if c = '<' then none
    else if c = '&' then
      match untilSemi s with
      | none => none
      | some (name, s') => match entity name with
        | none => none
        | some ch => (attrValue n s').map fun (v, r) => (ch :: v, r)
    else if c = '\r' then
      match s with
      | '\n' :: s' => (attrValue n s').map fun (v, r) => (' ' :: v, r)
      | _ => (attrValue n s).map fun (v, r) => (' ' :: v, r)
    else if c = '\n' ∨ c = '\t' then (attrValue n s).map fun (v, r) => (' ' :: v, r)
    else if xmlChar c then (attrValue n s).map fun (v, r) => (c :: v, r)
    else none

/-- Consume a literal.  (library behaviour used at `rxls/rels.py:37-39`.) -/
def expect (lit s : Str) : Option Str :=
  if lit.isPrefixOf s then some (s.drop lit.length) else none

/-- `attr["Type"].rsplit("/", 1)[-1]`, `rxls/rels.py:33`. -/
def lastSegment (s : Str) : Str := (s.reverse.takeWhile (· ≠ '/')).reverse

/-- The handler applied to one element as `dump_xml` writes it, `rxls/rels.py:25-36`. -/
def scanOne (s : Str) : Option (Relationship × Str) := do
  let s ← expect kwOpen s
  let (i, s) ← attrValue (s.length + 1) s
  let s ← expect kwType s
  let (t, s) ← attrValue (s.length + 1) s
  let s ← expect kwTarget s
  let (g, s) ← attrValue (s.length + 1) s
  let s ← expect kwClose s
  pure (⟨i, lastSegment t, g⟩, s)

/-- `scan_xml` over the children of the root, `rxls/rels.py:21-41`, up to the root's end tag. -/
def scanMany : Nat → Str → Option (List Relationship)
  | 0, _ => none
  | n + 1, s =>
    if s = kwEnd then some []
    else do
      let (r, s) ← scanOne s
      let rs ← scanMany n s
      pure (r :: rs)

/-- A package relationship part: root element around the dumped relationships.  (`rxls/rels.py:12,43-46`.) -/
def relsDocument (rs : List Relationship) : Str :=
  kwRoot ++ (rs.flatMap Relationship.dumpXml ++ kwEnd)

/-- `Relationship.scan_xml` on such a part.  (`rxls/rels.py:21-41`.) -/
def scanXml (s : Str) : Option (List Relationship) := do
  let s ← expect kwRoot s
  scanMany (s.length + 1) s

/-! ## Column letters -/

/-- `col_idx`, `rxls/reader/xlsx.py:66-73`, in its plain Python form (unbounded integers).  The loop runs over the
reversed bytes with accumulator `a` and exponent `i`. -/
def colIdx (col : Bytes) : Int :=
  (col.reverse.foldl
    (fun (st : Int × Nat) x =>
      if x.toNat > 64 then (st.1 + ((x.toNat : Int) - 64) * (26 ^ st.2), st.2 + 1) else st)
    ((-1 : Int), 0)).1

/-- `col_idx` compiled by numba with an `int32` result (`rxls/reader/xlsx.py:76-79`): the loop runs on `int64` words,
and the result is cut to 32 bits.  `i` does not overflow for any text that fits in memory. -/
def colIdxNumba (col : Bytes) : Int :=
  ((col.reverse.foldl
    (fun (st : BitVec 64 × Nat) x =>
      if x.toNat > 64 then (st.1 + (BitVec.ofNat 64 x.toNat - 64#64) * (26#64 ^ st.2), st.2 + 1) else st)
    ((-1 : BitVec 64), 0)).1.setWidth 32).toInt

end Rxls
