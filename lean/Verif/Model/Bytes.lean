import Verif.Model.Bvh
import Mathlib.Data.Nat.Digits.Defs

/-!
# Byte strings, as far as the file formats of /repo/src/image.rs need them

Standard-library functions on slices and numbers, with their documented behaviour.
-/

namespace Rendering

/-- A byte string literal `b"..."` (ASCII). -/
def bytes (s : String) : List UInt8 := s.toList.map (fun c => UInt8.ofNat c.toNat)

/-- `format!("{}", n)` of a `usize`: decimal digits, most significant first. -/
def decimal (n : Nat) : List UInt8 :=
  if n = 0 then [48] else ((Nat.digits 10 n).reverse).map (fun d => UInt8.ofNat (48 + d))

/-- One step of decimal parsing: `none` once a non-digit was met. -/
def digitStep (acc : Option Nat) (b : UInt8) : Option Nat :=
  match acc with
  | none => none
  | some n => if 48 ≤ b.toNat ∧ b.toNat ≤ 57 then some (10 * n + (b.toNat - 48)) else none

/-- The optional leading `+` accepted by `parse::<usize>()`. -/
def stripPlus : List UInt8 → List UInt8
  | 43 :: rest => rest
  | l => l

/-- `str::parse::<usize>()`: an optional `+`, then at least one digit and nothing else; values above `u64::MAX` are an error. -/
def parseUsize (l : List UInt8) : Option Nat :=
  let ds := stripPlus l
  if ds = [] then none
  else match ds.foldl digitStep (some 0) with
    | none => none
    | some n => if n < 2 ^ 64 then some n else none

/-- `slice.split(|c| p(c))`: the maximal pieces between separators (always at least one piece, possibly empty). -/
def splitOnByte (p : UInt8 → Bool) : List UInt8 → List (List UInt8)
  | [] => [[]]
  | b :: rest =>
    if p b then [] :: splitOnByte p rest
    else match splitOnByte p rest with
      | [] => [[b]]
      | piece :: more => (b :: piece) :: more

/-- `u8::is_ascii_whitespace`: space, tab, line feed, form feed, carriage return. -/
def isAsciiWhitespace (b : UInt8) : Bool := b == 32 || b == 9 || b == 10 || b == 12 || b == 13

/-- `slice.starts_with(prefix)`. -/
def startsWith (pre l : List UInt8) : Bool := pre == l.take pre.length

/-- Continuation byte of a multi-byte UTF-8 sequence. -/
def isCont (b : UInt8) : Bool := 128 ≤ b.toNat && b.toNat ≤ 191

/-- `std::str::from_utf8(l).is_ok()`: well-formed UTF-8 (RFC 3629). -/
def validUtf8 : List UInt8 → Bool
  | [] => true
  | b0 :: rest =>
    if b0.toNat < 128 then validUtf8 rest
    else match rest with
      | [] => false
      | b1 :: rest =>
        if 0xC2 ≤ b0.toNat && b0.toNat ≤ 0xDF then isCont b1 && validUtf8 rest
        else match rest with
          | [] => false
          | b2 :: rest =>
            if b0.toNat == 0xE0 then 0xA0 ≤ b1.toNat && isCont b1 && isCont b2 && validUtf8 rest
            else if b0.toNat == 0xED then b1.toNat ≤ 0x9F && isCont b1 && isCont b2 && validUtf8 rest
            else if 0xE1 ≤ b0.toNat && b0.toNat ≤ 0xEF then isCont b1 && isCont b2 && validUtf8 rest
            else match rest with
              | [] => false
              | b3 :: rest =>
                if b0.toNat == 0xF0 then 0x90 ≤ b1.toNat && isCont b1 && isCont b2 && isCont b3 && validUtf8 rest
                else if b0.toNat == 0xF4 then b1.toNat ≤ 0x8F && isCont b1 && isCont b2 && isCont b3 && validUtf8 rest
                else if 0xF1 ≤ b0.toNat && b0.toNat ≤ 0xF3 then isCont b1 && isCont b2 && isCont b3 && validUtf8 rest
                else false

/-- `slice.chunks_exact(4)`: whole groups of four bytes, a shorter remainder being dropped. -/
def chunksExact4 : List UInt8 → List (UInt8 × UInt8 × UInt8 × UInt8)
  | a :: b :: c :: d :: rest => (a, b, c, d) :: chunksExact4 rest
  | _ => []

end Rendering
