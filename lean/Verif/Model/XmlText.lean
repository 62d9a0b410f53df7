import Verif.Model.Xlsx

/-!
# From the bytes of an XML part to the events of expat

The readers hand every XML part to `pyexpat` (`rxls/rels.py:37-39`, `rxls/reader/xlsx.py:149-151,185-191,221-225,420-427`).
Expat is outside the repository; this file writes out what it does with a document, following XML 1.0: characters
(section 2.2), comments (2.5), processing instructions (2.6), CDATA sections (2.7), line ends (2.11), tags (3.1),
attribute values (3.3.3), references (4.1, 4.6), well-formedness constraints (tags match, attribute names are unique,
one root element, no `]]>` in text, no `<` in attribute values).  It is a machine that takes one character at a time,
so that the events up to a syntax error are known as well.

Simplifications: only UTF-8 documents; a document type declaration (not allowed in these files, ECMA-376 part 2) counts
as a syntax error; the content of the XML declaration is not looked at; names may contain every character from U+0080
on; when a text is longer than pyexpat's buffer, the pieces it is delivered in are a function of the text, and none of
them is delivered before a syntax error.
-/

namespace Rxls

/-- White space of XML (section 2.3).  (library behaviour used at `rxls/reader/xlsx.py:427` and `rxls/rels.py:39`.) -/
def xmlWs (c : Char) : Bool := c == ' ' || c == '\t' || c == '\n' || c == '\r'

/-- Characters a name may start with, and may contain (section 2.3).
(library behaviour used at `rxls/reader/xlsx.py:427` and `rxls/rels.py:39`.) -/
def nameStart (c : Char) : Bool := c.isAlpha || c == '_' || c == ':' || decide (0x80 ≤ c.toNat)
@[inherit_doc nameStart] def nameChar (c : Char) : Bool := nameStart c || c.isDigit || c == '-' || c == '.'

/-- Line ends become line feeds (section 2.11).
(library behaviour used at `rxls/reader/xlsx.py:427` and `rxls/rels.py:39`.) -/
def normEol : Str → Str
  | [] => []
  | c :: s =>
    if c = '\r' then
      match s with
      | '\n' :: t => '\n' :: normEol t
      | s => '\n' :: normEol s
    else c :: normEol s

/-- Where the machine is.  (library behaviour used at `rxls/reader/xlsx.py:427` and `rxls/rels.py:39`.) -/
inductive XMode where
  /-- in character data; `br` closing brackets just before, at most 2 -/
  | content (br : Nat)
  /-- after `&` in character data -/
  | ref (name : Str)
  /-- after `<` -/
  | lt
  /-- after `<!` -/
  | bang (seen : Str)
  /-- in a comment, `dashes` dashes just before -/
  | comment (dashes : Nat)
  /-- in a CDATA section; what was read, last character first -/
  | cdata (rev : Str)
  /-- in the target of a processing instruction; after the `?` that ends it; in the rest of it, after a `?` or not -/
  | piName (target : Str)
  | piEnd
  | piData (q : Bool)
  /-- in the name of a start tag; after it or after an attribute (`ws`: after white space); after the slash -/
  | openName (name : Str)
  | inTag (name : Str) (attrs : List (Str × Str)) (ws : Bool)
  | slash (name : Str) (attrs : List (Str × Str))
  /-- in the name of an attribute; after it; after the `=`; in the value; after `&` in the value -/
  | attName (name : Str) (attrs : List (Str × Str)) (att : Str)
  | attEq (name : Str) (attrs : List (Str × Str)) (att : Str)
  | attQuote (name : Str) (attrs : List (Str × Str)) (att : Str)
  | attVal (name : Str) (attrs : List (Str × Str)) (att : Str) (q : Char) (val : Str)
  | attRef (name : Str) (attrs : List (Str × Str)) (att : Str) (q : Char) (val : Str) (ref : Str)
  /-- in the name of an end tag; after it -/
  | closeName (name : Str)
  | closeWs (name : Str)
  /-- after a syntax error -/
  | dead
  deriving DecidableEq, Repr

/-- The machine: open elements, whether the root element was closed, text not yet delivered, events.
(library behaviour used at `rxls/reader/xlsx.py:427` and `rxls/rels.py:39`.) -/
structure XState where
  mode : XMode := .content 0
  stack : List Str := []
  done : Bool := false
  text : Str := []
  events : List Xml := []
  deriving DecidableEq, Repr

/-- `buffer_text`: text is delivered when the next tag comes; `pieces` cuts it.
(library behaviour used at `rxls/reader/xlsx.py:427` and `rxls/rels.py:39`.) -/
def textEvents (pieces : Str → List Str) (s : Str) : List Xml :=
  if s = [] then [] else (pieces s).map .text

/-- A start tag is complete.  (library behaviour used at `rxls/reader/xlsx.py:427` and `rxls/rels.py:39`.) -/
def XState.start (pieces : Str → List Str) (st : XState) (name : Str) (attrs : List (Str × Str)) : XState :=
  { mode := .content 0, stack := name :: st.stack, done := st.done, text := []
    events := st.events ++ textEvents pieces st.text ++ [.start name attrs] }

/-- An end tag is complete.  (library behaviour used at `rxls/reader/xlsx.py:427` and `rxls/rels.py:39`.) -/
def XState.close (pieces : Str → List Str) (st : XState) (name : Str) : XState :=
  match st.stack with
  | [] => { st with mode := .dead }
  | t :: rest =>
    if t = name then
      { mode := .content 0, stack := rest, done := rest.isEmpty, text := []
        events := st.events ++ textEvents pieces st.text ++ [.close name] }
    else { st with mode := .dead }

/-- An empty element tag is complete.  (library behaviour used at `rxls/reader/xlsx.py:427` and `rxls/rels.py:39`.) -/
def XState.empty (pieces : Str → List Str) (st : XState) (name : Str) (attrs : List (Str × Str)) : XState :=
  (st.start pieces name attrs).close pieces name

/-- What may follow `<!`; document type declarations are left out.
(library behaviour used at `rxls/reader/xlsx.py:427` and `rxls/rels.py:39`.) -/
def kwComment : Str := ['-', '-']
@[inherit_doc kwComment] def kwCdata : Str := ['[', 'C', 'D', 'A', 'T', 'A', '[']

/-- `xml` in any case is not a target of a processing instruction.
(library behaviour used at `rxls/reader/xlsx.py:427` and `rxls/rels.py:39`.) -/
def isXmlTarget (t : Str) : Bool := t.map Char.toLower == ['x', 'm', 'l']

/-- One character that is allowed in XML.
(library behaviour used at `rxls/reader/xlsx.py:427` and `rxls/rels.py:39`.) -/
def XState.char (pieces : Str → List Str) (st : XState) (c : Char) : XState :=
  let go (m : XMode) : XState := { st with mode := m }
  match st.mode with
  | .dead => st
  | .content br =>
    if c = '<' then go .lt
    else if st.stack = [] then (if xmlWs c then st else go .dead)
    else if c = '&' then go (.ref [])
    else if c = '>' ∧ br = 2 then go .dead
    else { st with mode := .content (if c = ']' then min (br + 1) 2 else 0), text := st.text ++ [c] }
  | .ref r =>
    if c = ';' then
      match entity r with
      | some x => { st with mode := .content 0, text := st.text ++ [x] }
      | none => go .dead
    else go (.ref (r ++ [c]))
  | .lt =>
    if c = '/' then go (.closeName [])
    else if c = '!' then go (.bang [])
    else if c = '?' then go (.piName [])
    else if nameStart c then (if st.stack = [] ∧ st.done = true then go .dead else go (.openName [c]))
    else go .dead
  | .bang s =>
    let s := s ++ [c]
    if s = kwComment then go (.comment 0)
    else if s = kwCdata then (if st.stack = [] then go .dead else go (.cdata []))
    else if s.isPrefixOf kwComment || s.isPrefixOf kwCdata then go (.bang s)
    else go .dead
  | .comment d =>
    if c = '-' then (if d = 2 then go .dead else go (.comment (d + 1)))
    else if d = 2 then (if c = '>' then go (.content 0) else go .dead)
    else go (.comment 0)
  | .cdata rev =>
    match c, rev with
    | '>', ']' :: ']' :: r => { st with mode := .content 0, text := st.text ++ r.reverse }
    | c, rev => go (.cdata (c :: rev))
  | .piName t =>
    if t = [] then (if nameStart c then go (.piName [c]) else go .dead)
    else if nameChar c then go (.piName (t ++ [c]))
    else if isXmlTarget t then go .dead
    else if c = '?' then go .piEnd
    else if xmlWs c then go (.piData false)
    else go .dead
  | .piEnd => if c = '>' then go (.content 0) else go .dead
  | .piData q => if q = true ∧ c = '>' then go (.content 0) else go (.piData (c == '?'))
  | .openName n =>
    if nameChar c then go (.openName (n ++ [c]))
    else if xmlWs c then go (.inTag n [] true)
    else if c = '/' then go (.slash n [])
    else if c = '>' then st.start pieces n []
    else go .dead
  | .inTag n as ws =>
    if xmlWs c then go (.inTag n as true)
    else if c = '/' then go (.slash n as)
    else if c = '>' then st.start pieces n as
    else if ws = true ∧ nameStart c = true then go (.attName n as [c])
    else go .dead
  | .slash n as => if c = '>' then st.empty pieces n as else go .dead
  | .attName n as a =>
    if nameChar c then go (.attName n as (a ++ [c]))
    else if xmlWs c then go (.attEq n as a)
    else if c = '=' then go (.attQuote n as a)
    else go .dead
  | .attEq n as a =>
    if xmlWs c then st
    else if c = '=' then go (.attQuote n as a)
    else go .dead
  | .attQuote n as a =>
    if xmlWs c then st
    else if c = '"' ∨ c = '\'' then go (.attVal n as a c [])
    else go .dead
  | .attVal n as a q v =>
    if c = q then (if (as.map (·.1)).contains a then go .dead else go (.inTag n (as ++ [(a, v)]) false))
    else if c = '<' then go .dead
    else if c = '&' then go (.attRef n as a q v [])
    else go (.attVal n as a q (v ++ [if xmlWs c then ' ' else c]))
  | .attRef n as a q v r =>
    if c = ';' then
      match entity r with
      | some x => go (.attVal n as a q (v ++ [x]))
      | none => go .dead
    else go (.attRef n as a q v (r ++ [c]))
  | .closeName n =>
    if nameChar c then go (.closeName (n ++ [c]))
    else if xmlWs c then go (.closeWs n)
    else if c = '>' then st.close pieces n
    else go .dead
  | .closeWs n =>
    if xmlWs c then st
    else if c = '>' then st.close pieces n
    else go .dead

/-- One character.  (library behaviour used at `rxls/reader/xlsx.py:427` and `rxls/rels.py:39`.) -/
def XState.step (pieces : Str → List Str) (st : XState) (c : Char) : XState :=
  if xmlChar c then st.char pieces c else { st with mode := .dead }

/-- The document is complete.  (library behaviour used at `rxls/reader/xlsx.py:427` and `rxls/rels.py:39`.) -/
def XState.complete (st : XState) : Bool :=
  match st.mode with
  | .content _ => st.stack.isEmpty && st.done
  | _ => false

/-- The text after `?>`.  (library behaviour used at `rxls/reader/xlsx.py:427` and `rxls/rels.py:39`.) -/
def afterPi : Str → Option Str
  | [] => none
  | c :: s =>
    match c, s with
    | '?', '>' :: t => some t
    | _, s => afterPi s

/-- The text after the XML declaration, if there is one.
(library behaviour used at `rxls/reader/xlsx.py:427` and `rxls/rels.py:39`.) -/
def dropDecl : Str → Option Str
  | '<' :: '?' :: 'x' :: 'm' :: 'l' :: c :: s => if xmlWs c then afterPi s else some ('<' :: '?' :: 'x' :: 'm' :: 'l' :: c :: s)
  | s => some s

/-- `ParseFile` on a document given as characters.
(library behaviour used at `rxls/reader/xlsx.py:427` and `rxls/rels.py:39`.) -/
def parseXml (pieces : Str → List Str) (s : Str) : XmlDoc :=
  match dropDecl (normEol s) with
  | none => ⟨[], true⟩
  | some s =>
    let st := s.foldl (XState.step pieces) {}
    ⟨st.events, !st.complete⟩

/-- Decoding of UTF-8: the characters up to the end or up to the first byte that is not UTF-8, and whether all is well.
The first argument bounds the number of steps.
(library behaviour used at `rxls/reader/xlsx.py:427` and `rxls/rels.py:39`.) -/
def utf8Run : Nat → Bytes → Str × Bool
  | 0, b => ([], b.isEmpty)
  | n + 1, b =>
    if b.isEmpty then ([], true)
    else
      match (b.take 4).toByteArray.utf8DecodeChar? 0 with
      | none => ([], false)
      | some c =>
        let r := utf8Run n (b.drop c.utf8Size)
        (c :: r.1, r.2)

/-- The byte order mark at the start of a document is not part of it.
(library behaviour used at `rxls/reader/xlsx.py:427` and `rxls/rels.py:39`.) -/
def dropMark : Str → Str
  | c :: s => if c.toNat = 0xFEFF then s else c :: s
  | [] => []

/-- `ParseFile` on the bytes of a part.  (library behaviour used at `rxls/reader/xlsx.py:427` and `rxls/rels.py:39`.) -/
def parsePart (pieces : Str → List Str) (b : Bytes) : XmlDoc :=
  let r := utf8Run b.length b
  let d := parseXml pieces (dropMark r.1)
  ⟨d.events, d.bad || !r.2⟩

end Rxls
