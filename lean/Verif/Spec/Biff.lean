import Verif.Model.Biff

/-! # Specification vocabulary for BIFF12 streams -/

namespace Rxls

/-- Ids that fit the wire format: one byte without the continuation bit `0x80`, or two bytes the
first of which has it. -/
def EncodableId (id : Nat) : Prop := id < 0x80 ∨ (id / 0x80 % 2 = 1 ∧ id < 0x10000)

/-- Records the wire format can carry. -/
def Encodable (r : Record) : Prop := EncodableId r.recId ∧ r.data.length < 2 ^ 29

instance (id : Nat) : Decidable (EncodableId id) := by unfold EncodableId; infer_instance
instance (r : Record) : Decidable (Encodable r) := by unfold Encodable; infer_instance

/-- Dump records one after the other onto a stream that already holds `io`, as a user of
`record.dump` does. -/
def writeAll : List Record → Bytes → Py Bytes
  | [], io => .ok io
  | r :: rs, io => do
    let (io', _) ← r.dump io
    writeAll rs io'

/-- Number of bytes a record occupies on the wire (id field, size field, payload), stated
independently of the writer. -/
def wireLength (r : Record) : Nat :=
  (if r.recId < 0x80 then 1 else 2)
  + (if r.data.length < 2 ^ 7 then 1 else if r.data.length < 2 ^ 14 then 2
     else if r.data.length < 2 ^ 21 then 3 else 4)
  + r.data.length

/-- The leading records that lie wholly within the first `k` bytes of the stream. -/
def wholeBefore : Nat → List Record → List Record
  | _, [] => []
  | k, r :: rs => if wireLength r ≤ k then r :: wholeBefore (k - wireLength r) rs else []

/-- Value of a size field: base 128, least significant group first; the last byte counts in full. -/
def groupsValue : Bytes → Nat
  | [] => 0
  | [b] => b.toNat
  | b :: bs => b.toNat % 128 + 128 * groupsValue bs

/-- Every byte but the last carries the continuation bit. -/
def Continued (b : Bytes) : Prop := ∀ x ∈ b.dropLast, 128 ≤ x.toNat

/-- The number of bytes the wire format gives to a size. -/
def sizeClass (i : Nat) : Nat :=
  if i < 2 ^ 7 then 1 else if i < 2 ^ 14 then 2 else if i < 2 ^ 21 then 3 else 4

/-- The wire format's id field, little endian. -/
def idBytes (id : Nat) : Bytes :=
  if id < 0x80 then [UInt8.ofNat id] else [UInt8.ofNat (id % 256), UInt8.ofNat (id / 256)]

/-- A size field as a reader must take it, shortest or not: one to four bytes, all but the last with
the continuation bit; only a fourth byte may carry it at the end. -/
def SizeField (sz : Bytes) (v : Nat) : Prop :=
  1 ≤ sz.length ∧ sz.length ≤ 4 ∧ Continued sz ∧ groupsValue sz = v ∧
    (sz.length < 4 → ∀ b ∈ sz.getLast?, b.toNat < 128)

/-- `w` is a record on the wire. -/
def WireRecord (r : Record) (w : Bytes) : Prop :=
  EncodableId r.recId ∧ ∃ sz, w = idBytes r.recId ++ sz ++ r.data ∧ SizeField sz r.data.length

/-- `Splits io rs t`: the stream `io` is the records `rs`, one after the other, followed by bytes `t`
that do not begin with a record. -/
inductive Splits : Bytes → List Record → Bytes → Prop
  | stop (t : Bytes) (h : ∀ r w, WireRecord r w → ¬ w <+: t) : Splits t [] t
  | record {r : Record} {w io : Bytes} {rs : List Record} {t : Bytes} (hw : WireRecord r w)
      (h : Splits io rs t) : Splits (w ++ io) (r :: rs) t

end Rxls
