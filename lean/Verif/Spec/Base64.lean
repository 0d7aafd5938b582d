import Verif.Model.Base64
/-
Specification of base64 (RFC 4648, section 4), written with plain arithmetic on 24-bit groups and the
alphabet as a string; independent of the tables and shifts of the model.
-/
namespace Verif.Base64.Spec
open Verif.Base64 (Byte)

/-- The RFC 4648 alphabet. -/
def alphabet : List Char :=
  "ABCDEFGHIJKLMNOPQRSTUVWXYZabcdefghijklmnopqrstuvwxyz0123456789+/".toList

/-- The alphabet character for a 6-bit value, as a byte. -/
def digit (v : Nat) : Byte := BitVec.ofNat 8 (alphabet.getD v ' ').toNat

/-- The padding character `=`. -/
def pad : Byte := BitVec.ofNat 8 '='.toNat

/-- RFC 4648: 24-bit groups are split into four 6-bit values; an 8- or 16-bit remainder is filled with zero
bits and padded with `=`. -/
def rfc4648 : List Byte → List Byte
  | a :: b :: c :: rest =>
    let n := a.toNat * 65536 + b.toNat * 256 + c.toNat
    [digit (n / 262144), digit (n / 4096 % 64), digit (n / 64 % 64), digit (n % 64)] ++ rfc4648 rest
  | [a, b] =>
    let n := a.toNat * 65536 + b.toNat * 256
    [digit (n / 262144), digit (n / 4096 % 64), digit (n / 64 % 64), pad]
  | [a] =>
    let n := a.toNat * 65536
    [digit (n / 262144), digit (n / 4096 % 64), pad, pad]
  | [] => []

/-- Value of a little-endian byte string. -/
def leNat : List Byte → Nat
  | [] => 0
  | b :: rest => b.toNat + 256 * leNat rest

end Verif.Base64.Spec
