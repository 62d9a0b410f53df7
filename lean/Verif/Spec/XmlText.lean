import Verif.Model.XmlText

/-!
# How an XML document may be written

The pieces of a document as they stand in the file, their text, and the events they mean.  Nothing here depends on the
parser; `xmlWs`, `xmlChar`, `nameStart`, `nameChar` are the character classes of the recommendation.
-/

namespace Rxls

/-- Line ends: the text `s` of a file means `t`, where a line end is a line feed.  In the file it is a line feed, a
carriage return and a line feed, or a carriage return. -/
inductive LineEnds : Str → Str → Prop where
  | nil : LineEnds [] []
  | char {c : Char} {s t : Str} : c ≠ '\r' → LineEnds s t → LineEnds (c :: s) (c :: t)
  | crlf {s t : Str} : LineEnds s t → LineEnds ('\r' :: '\n' :: s) ('\n' :: t)
  | cr {s t : Str} : s.head? ≠ some '\n' → LineEnds s t → LineEnds ('\r' :: s) ('\n' :: t)

/-- A character: itself, a predefined entity, a decimal or hexadecimal reference (digits as numbers; whether a
hexadecimal digit is a capital letter). -/
inductive CForm where
  | raw (c : Char)
  | named (c : Char)
  | dec (ds : List Nat)
  | hex (ds : List (Bool × Nat))
  deriving DecidableEq, Repr

/-- Names of the predefined entities. -/
def entityName (c : Char) : Str :=
  if c = '<' then ['l', 't']
  else if c = '>' then ['g', 't']
  else if c = '&' then ['a', 'm', 'p']
  else if c = '"' then ['q', 'u', 'o', 't']
  else ['a', 'p', 'o', 's']

/-- A hexadecimal digit. -/
def hexChar (upper : Bool) (d : Nat) : Char := if upper then (Nat.digitChar d).toUpper else Nat.digitChar d

def CForm.text : CForm → Str
  | .raw c => [c]
  | .named c => '&' :: (entityName c ++ [';'])
  | .dec ds => '&' :: '#' :: (ds.map Nat.digitChar ++ [';'])
  | .hex ds => '&' :: '#' :: 'x' :: (ds.map (fun d => hexChar d.1 d.2) ++ [';'])

/-- The number written with these digits. -/
def digitsNum (base : Nat) (ds : List Nat) : Nat := ds.foldl (fun a d => a * base + d) 0

/-- The character meant. -/
def CForm.char : CForm → Char
  | .raw c => c
  | .named c => c
  | .dec ds => Char.ofNat (digitsNum 10 ds)
  | .hex ds => Char.ofNat (digitsNum 16 (ds.map (·.2)))

/-- A number of a character allowed in XML. -/
def CharNum (n : Nat) : Prop := n.isValidChar ∧ xmlChar (Char.ofNat n) = true

/-- A character is written correctly; `stop` are the characters that must not stand for themselves. -/
def CForm.Ok (stop : List Char) : CForm → Prop
  | .raw c => xmlChar c = true ∧ c ≠ '<' ∧ c ≠ '&' ∧ c ∉ stop
  | .named c => c ∈ ['<', '>', '&', '"', '\'']
  | .dec ds => ds ≠ [] ∧ (∀ d ∈ ds, d < 10) ∧ CharNum (digitsNum 10 ds)
  | .hex ds => ds ≠ [] ∧ (∀ d ∈ ds, d.2 < 16) ∧ CharNum (digitsNum 16 (ds.map (·.2)))

/-- White space, and a text of allowed characters. -/
def Spaces (s : Str) : Prop := ∀ c ∈ s, xmlWs c = true
@[inherit_doc Spaces] def Chars (s : Str) : Prop := ∀ c ∈ s, xmlChar c = true

/-- A name. -/
structure XmlName (n : Str) : Prop where
  start : ∃ c t, n = c :: t ∧ nameStart c = true
  rest : ∀ c ∈ n, nameChar c = true ∧ xmlChar c = true

/-- An attribute: white space before it, name, white space around the `=`, quotation mark, value. -/
structure AttForm where
  ws : Str := [' ']
  name : Str
  ws1 : Str := []
  ws2 : Str := []
  single : Bool := false
  value : List CForm
  deriving DecidableEq, Repr

def AttForm.quote (a : AttForm) : Char := if a.single then '\'' else '"'

def AttForm.text (a : AttForm) : Str :=
  a.ws ++ (a.name ++ (a.ws1 ++ '=' :: (a.ws2 ++ a.quote :: (a.value.flatMap CForm.text ++ [a.quote]))))

/-- In attribute values white space that stands for itself means a blank. -/
def CForm.attChar : CForm → Char
  | .raw c => if xmlWs c then ' ' else c
  | f => f.char

/-- Name and value. -/
def AttForm.pair (a : AttForm) : Str × Str := (a.name, a.value.map CForm.attChar)

structure AttForm.Ok (a : AttForm) : Prop where
  ws : Spaces a.ws ∧ a.ws ≠ []
  name : XmlName a.name
  around : Spaces a.ws1 ∧ Spaces a.ws2
  value : ∀ f ∈ a.value, f.Ok [a.quote]

/-- Comments and processing instructions. -/
inductive Aside where
  | comment (s : Str)
  | pi (target : Str) (s : Str)
  deriving DecidableEq, Repr

def Aside.text : Aside → Str
  | .comment s => ['<', '!', '-', '-'] ++ (s ++ ['-', '-', '>'])
  | .pi t s => ['<', '?'] ++ (t ++ (s ++ ['?', '>']))

def Aside.Ok : Aside → Prop
  | .comment s => Chars s ∧ ¬ ['-', '-'] <:+: s ++ ['-']
  | .pi t s => XmlName t ∧ t.map Char.toLower ≠ ['x', 'm', 'l'] ∧ Chars s ∧ (∀ c r, s = c :: r → xmlWs c = true) ∧
      ¬ ['?', '>'] <:+: s

/-- A piece of the root element. -/
inductive Piece where
  | start (tag : Str) (attrs : List AttForm) (ws : Str)
  | empty (tag : Str) (attrs : List AttForm) (ws : Str)
  | close (tag : Str) (ws : Str)
  | char (f : CForm)
  | cdata (s : Str)
  | aside (a : Aside)
  deriving DecidableEq, Repr

def Piece.text : Piece → Str
  | .start t as ws => '<' :: (t ++ (as.flatMap AttForm.text ++ (ws ++ ['>'])))
  | .empty t as ws => '<' :: (t ++ (as.flatMap AttForm.text ++ (ws ++ ['/', '>'])))
  | .close t ws => '<' :: '/' :: (t ++ (ws ++ ['>']))
  | .char f => f.text
  | .cdata s => ['<', '!', '[', 'C', 'D', 'A', 'T', 'A', '['] ++ (s ++ [']', ']', '>'])
  | .aside a => a.text

/-- The attributes of a tag: written correctly, no name twice. -/
def AttrsOk (as : List AttForm) : Prop := (∀ a ∈ as, a.Ok) ∧ (as.map AttForm.name).Nodup

def Piece.Ok : Piece → Prop
  | .start t as ws => XmlName t ∧ AttrsOk as ∧ Spaces ws
  | .empty t as ws => XmlName t ∧ AttrsOk as ∧ Spaces ws
  | .close t ws => XmlName t ∧ Spaces ws
  | .char f => f.Ok []
  | .cdata s => Chars s ∧ ¬ [']', ']', '>'] <:+: s
  | .aside a => a.Ok

/-- The pieces close the open elements `stack`, the innermost first, and nothing comes after that. -/
def Nested : List Str → List Piece → Prop
  | stack, [] => stack = []
  | [], _ :: _ => False
  | t :: stack, .start u _ _ :: ps => Nested (u :: t :: stack) ps
  | t :: stack, .close u _ :: ps => u = t ∧ Nested stack ps
  | t :: stack, .empty _ _ _ :: ps => Nested (t :: stack) ps
  | t :: stack, .char _ :: ps => Nested (t :: stack) ps
  | t :: stack, .cdata _ :: ps => Nested (t :: stack) ps
  | t :: stack, .aside _ :: ps => Nested (t :: stack) ps

/-- The events of pieces: adjacent text is joined, across comments as well, and delivered as `deliver` says. -/
def pieceEvents (deliver : Str → List Xml) : Str → List Piece → List Xml
  | _, [] => []
  | p, .start t as _ :: ps => deliver p ++ .start t (as.map AttForm.pair) :: pieceEvents deliver [] ps
  | p, .empty t as _ :: ps =>
    deliver p ++ .start t (as.map AttForm.pair) :: .close t :: pieceEvents deliver [] ps
  | p, .close t _ :: ps => deliver p ++ .close t :: pieceEvents deliver [] ps
  | p, .char f :: ps => pieceEvents deliver (p ++ [f.char]) ps
  | p, .cdata s :: ps => pieceEvents deliver (p ++ s) ps
  | p, .aside _ :: ps => pieceEvents deliver p ps

/-- What stands around the root element: white space, comments, processing instructions. -/
structure Misc where
  items : List (Str × Aside) := []
  last : Str := []
  deriving DecidableEq, Repr

def Misc.text (m : Misc) : Str := m.items.flatMap (fun p => p.1 ++ p.2.text) ++ m.last

structure Misc.Ok (m : Misc) : Prop where
  items : ∀ p ∈ m.items, Spaces p.1 ∧ p.2.Ok
  last : Spaces m.last

/-- A document. -/
structure XmlForm where
  /-- what stands between `<?xml` and `?>` -/
  decl : Option Str := none
  pre : Misc := {}
  /-- all pieces of the root element, its tags included -/
  body : List Piece
  post : Misc := {}
  deriving DecidableEq, Repr

/-- The declaration. -/
def declText : Option Str → Str
  | none => []
  | some d => ['<', '?', 'x', 'm', 'l'] ++ (d ++ ['?', '>'])

def XmlForm.text (x : XmlForm) : Str :=
  declText x.decl ++ (x.pre.text ++ (x.body.flatMap Piece.text ++ x.post.text))

/-- The events it means; `pieces` cuts texts that are too long for the buffer. -/
def XmlForm.events (pieces : Str → List Str) (x : XmlForm) : List Xml :=
  pieceEvents (fun s => if s = [] then [] else (pieces s).map .text) [] x.body

/-- One root element. -/
def RootOk : List Piece → Prop
  | .start t _ _ :: ps => Nested [t] ps
  | .empty _ _ _ :: ps => ps = []
  | _ => False

structure XmlForm.Ok (x : XmlForm) : Prop where
  decl : ∀ d, x.decl = some d → (∃ c r, d = c :: r ∧ xmlWs c = true) ∧ ¬ ['?', '>'] <:+: d
  pre : x.pre.Ok
  body : ∀ p ∈ x.body, p.Ok
  root : RootOk x.body
  /-- `]]>` does not stand in a text -/
  brackets : ¬ [.char (.raw ']'), .char (.raw ']'), .char (.raw '>')] <:+: x.body
  post : x.post.Ok

end Rxls
