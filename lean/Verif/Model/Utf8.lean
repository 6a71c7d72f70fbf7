import Verif.Model.Base
/-
CPython's UTF-8 decoder with `errors='replace'`.
-/
namespace Kolombos

/-- `lo ≤ b ≤ hi` -/
def inRng (lo hi : Nat) (b : Byte) : Bool := decide (lo ≤ b.toNat) && decide (b.toNat ≤ hi)

/-- Continuation byte. -/
def isCont (b : Byte) : Bool := inRng 0x80 0xbf b

/-- Allowed range of the second byte after lead byte `b` of a multi-byte
sequence, and the number of further continuation bytes (Unicode table 3-7). -/
def leadInfo (b : Byte) : Option (Nat × Nat × Nat) :=
  let n := b.toNat
  if 0xc2 ≤ n ∧ n ≤ 0xdf then some (0x80, 0xbf, 0)
  else if n = 0xe0 then some (0xa0, 0xbf, 1)
  else if n = 0xed then some (0x80, 0x9f, 1)
  else if 0xe1 ≤ n ∧ n ≤ 0xef then some (0x80, 0xbf, 1)
  else if n = 0xf0 then some (0x90, 0xbf, 2)
  else if 0xf1 ≤ n ∧ n ≤ 0xf3 then some (0x80, 0xbf, 2)
  else if n = 0xf4 then some (0x80, 0x8f, 2)
  else none

/-- The character with code point `n` (valid by the table above). -/
def chr (n : Nat) : Char := Char.ofNat n

/-- One step of `bytes.decode('utf8', errors='replace')` on a non-empty input:
the decoded character (U+FFFD for a maximal invalid subpart) and the rest. -/
def decodeStep (b : Byte) (s : Bytes) : Char × Bytes :=
  if b.toNat < 0x80 then (chr b.toNat, s)
  else match leadInfo b with
    | none => ('�', s)
    | some (lo, hi, k) =>
      match s with
      | [] => ('�', [])
      | b1 :: s1 =>
        if inRng lo hi b1 = false then ('�', s)
        else if k = 0 then (chr ((b.toNat - 0xc0) * 64 + (b1.toNat - 0x80)), s1)
        else match s1 with
          | [] => ('�', [])
          | b2 :: s2 =>
            if isCont b2 = false then ('�', s1)
            else if k = 1 then
              (chr ((b.toNat - 0xe0) * 4096 + (b1.toNat - 0x80) * 64 + (b2.toNat - 0x80)), s2)
            else match s2 with
              | [] => ('�', [])
              | b3 :: s3 =>
                if isCont b3 = false then ('�', s2)
                else (chr ((b.toNat - 0xf0) * 262144 + (b1.toNat - 0x80) * 4096
                        + (b2.toNat - 0x80) * 64 + (b3.toNat - 0x80)), s3)

/-- Decoder loop (fuel: at least the number of bytes). -/
def decodeUtf8Aux : Nat → Bytes → Str
  | 0, _ => []
  | _ + 1, [] => []
  | n + 1, b :: s => let r := decodeStep b s; r.1 :: decodeUtf8Aux n r.2

/-- `raw.decode('utf8', errors='replace')`. -/
def decodeUtf8 (raw : Bytes) : Str := decodeUtf8Aux raw.length raw

end Kolombos
