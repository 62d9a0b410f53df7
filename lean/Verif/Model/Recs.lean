import Verif.Model.Biff

/-!
# Model of `rxls/biff_recs.py`

A Python `str` is a list of Unicode scalar values (`Str`).  Lone surrogates, which a Python `str`
may hold but which neither decoder can produce, are not represented.
-/

namespace Rxls

/-- Python `str` without lone surrogates.  (`rxls/biff_recs.py:30`.) -/
abbrev Str := List Char

/-- Little-endian 16-bit words; an odd number of bytes is `UnicodeDecodeError` ("truncated data").
(library behaviour used at `rxls/biff_recs.py:41,59`.) -/
def wordsLE : Bytes → Py (List Nat)
  | [] => .ok []
  | [_] => .error .unicodeDecodeError
  | a :: b :: bs => do
    let ws ← wordsLE bs
    .ok ((a.toNat + 256 * b.toNat) :: ws)

/-- Big-endian 16-bit words.  (library behaviour used at `rxls/biff_recs.py:41,59`.) -/
def wordsBE : Bytes → Py (List Nat)
  | [] => .ok []
  | [_] => .error .unicodeDecodeError
  | a :: b :: bs => do
    let ws ← wordsBE bs
    .ok ((256 * a.toNat + b.toNat) :: ws)

/-- CPython's strict UTF-16 decoder on words: surrogate pairs are combined, lone surrogates are
`UnicodeDecodeError`.  (library behaviour used at `rxls/biff_recs.py:41,59`.) -/
def decodeWords : List Nat → Py Str
  | [] => .ok []
  | w :: ws =>
    if 0xD800 ≤ w ∧ w < 0xDC00 then
      match ws with
      | [] => .error .unicodeDecodeError
      | v :: ws' =>
        if 0xDC00 ≤ v ∧ v < 0xE000 then do
          let s ← decodeWords ws'
          .ok (Char.ofNat (0x10000 + (w - 0xD800) * 0x400 + (v - 0xDC00)) :: s)
        else .error .unicodeDecodeError
    else if 0xDC00 ≤ w ∧ w < 0xE000 then .error .unicodeDecodeError
    else do
      let s ← decodeWords ws
      .ok (Char.ofNat w :: s)

/-- `bytes.decode("utf-16")` on a little-endian machine: a leading byte order mark is consumed and
selects the byte order, otherwise little endian.  (library behaviour used at `rxls/biff_recs.py:41,59`.) -/
def decodeUtf16 (b : Bytes) : Py Str :=
  match b with
  | 0xFF :: 0xFE :: bs => do decodeWords (← wordsLE bs)
  | 0xFE :: 0xFF :: bs => do decodeWords (← wordsBE bs)
  | _ => do decodeWords (← wordsLE b)

/-- Words of one character as CPython's encoder writes them.  (library behaviour used at `rxls/biff_recs.py:48`.) -/
def encodeWords : Str → List Nat
  | [] => []
  | c :: s =>
    (if c.toNat < 0x10000 then [c.toNat]
     else [0xD800 + (c.toNat - 0x10000) / 0x400, 0xDC00 + (c.toNat - 0x10000) % 0x400])
    ++ encodeWords s

/-- Little-endian bytes of words below `2^16`.  (library behaviour used at `rxls/biff_recs.py:48`.) -/
def bytesLE (ws : List Nat) : Bytes :=
  ws.flatMap (fun w => [UInt8.ofNat (w % 256), UInt8.ofNat (w / 256)])

/-- `str.encode("utf-16")` on a little-endian machine: byte order mark, then little-endian words.
(library behaviour used at `rxls/biff_recs.py:48`.) -/
def encodeUtf16 (s : Str) : Bytes := 0xFF :: 0xFE :: bytesLE (encodeWords s)

/-- `xstr.load(io)`, `rxls/biff_recs.py:36-41`; `none` is `xstr(None)`.  Returns the rest of the
stream. -/
def xstrLoad (io : Bytes) : Py (Option Str × Bytes) := do
  let sz ← unpackI (io.take 4)
  let io := io.drop 4
  if sz = 0xFFFFFFFF then .ok (none, io)
  else do
    let s ← decodeUtf16 (io.take (sz * 2))
    .ok (some s, io.drop (sz * 2))

/-- `xstr.dump(io)`, `rxls/biff_recs.py:43-52`: the bytes appended to the stream. -/
def xstrDump (s : Option Str) : Py Bytes :=
  match s with
  | none => .ok [0xFF, 0xFF, 0xFF, 0xFF]
  | some [] => .ok [0, 0, 0, 0]
  | some s => do
    let n ← packI s.length
    .ok (n ++ encodeUtf16 s)

/-- `xstr.from_binary(b)`, `rxls/biff_recs.py:54-59`. -/
def xstrFromBinary (b : Bytes) : Py (Option Str) := do
  let sz ← unpackI (pySlice b 0 4)
  if sz = 0xFFFFFFFF then .ok none
  else do
    let s ← decodeUtf16 (pySlice b 4 (4 + sz * 2))
    .ok (some s)

/-- `xstr.value`, `rxls/biff_recs.py:32-34`. -/
def xstrValue (s : Option Str) : Str := s.getD []

/-- `class BrtBundleSh`, `rxls/biff_recs.py:69-75`. -/
structure BundleSh where
  hsState : Nat
  iTabID : Nat
  strRelID : Option Str
  strName : Option Str
  deriving DecidableEq, Repr

/-- `u44_u`, `rxls/biff_recs.py:18-20`. -/
def unpackII (b : Bytes) : Py (Nat × Nat) :=
  if b.length = 8 then do
    let x ← unpackI (b.take 4)
    let y ← unpackI (b.drop 4)
    .ok (x, y)
  else .error .structError

/-- `BrtBundleSh.loadr(rc)`, `rxls/biff_recs.py:77-80`. -/
def bundleLoadr (data : Bytes) : Py BundleSh := do
  let io := data.drop 8
  let (hs, tab) ← unpackII (data.take 8)
  let (rel, io) ← xstrLoad io
  let (name, _) ← xstrLoad io
  .ok ⟨hs, tab, rel, name⟩

end Rxls
