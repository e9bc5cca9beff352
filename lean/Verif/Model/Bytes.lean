import Verif.Model.Core

/-!
# Packing values (base/util.go)
-/

namespace Golearn

/-- `byte(val & (0xFF << s) >> s)`; in Go `&` and `>>` have the same precedence and
associate to the left, so this is `byte((val & (0xFF << s)) >> s)`.
Models base/util.go:11-18 and 31-38. -/
def byteAt (val : U64) (s : Nat) : Byte :=
  ((val &&& ((0xFF#64) <<< s)) >>> s).setWidth 8

/-- Models `PackU64ToBytes`, base/util.go:29-40. The result is `ret[0], ret[1], ..., ret[7]`. -/
def packU64 (val : U64) : Bytes :=
  [byteAt val 0, byteAt val 8, byteAt val 16, byteAt val 24,
   byteAt val 32, byteAt val 40, byteAt val 48, byteAt val 56]

/-- Models `PackU64ToBytesInline`, base/util.go:10-19: writes positions 7, 6, ..., 0 of the
caller's slice. `ret[7]` panics if the slice is shorter than 8. -/
def packU64Inline (val : U64) (ret : Bytes) : Res Bytes :=
  if ret.length < 8 then Res.panic
  else Res.ok (((((((((ret.set 7 (byteAt val 56)).set 6 (byteAt val 48)).set 5 (byteAt val 40)).set 4
    (byteAt val 32)).set 3 (byteAt val 24)).set 2 (byteAt val 16)).set 1 (byteAt val 8)).set 0
    (byteAt val 0)))

/-- Models `UnpackBytesToU64`, base/util.go:44-47: reads eight bytes at the address of `val[0]`
on a little-endian machine. `&val[0]` panics on an empty slice; on a slice of 1..7 bytes the Go
code reads past the slice, which the model reports as `panic` (undefined result). Longer slices
are read at their first eight bytes. -/
def unpackU64 (val : Bytes) : Res U64 :=
  match val with
  | b0 :: b1 :: b2 :: b3 :: b4 :: b5 :: b6 :: b7 :: _ =>
    Res.ok ((b0.setWidth 64) ||| (b1.setWidth 64 <<< 8) ||| (b2.setWidth 64 <<< 16) |||
      (b3.setWidth 64 <<< 24) ||| (b4.setWidth 64 <<< 32) ||| (b5.setWidth 64 <<< 40) |||
      (b6.setWidth 64 <<< 48) ||| (b7.setWidth 64 <<< 56))
  | _ => Res.panic

/-- `PackFloatToBytes`, base/util.go:51-53, on the bit pattern of the float
(`math.Float64bits` is the identity on patterns). -/
def packFloatBits (bits : U64) : Bytes := packU64 bits

/-- `PackFloatToBytesInline`, base/util.go:23-25. -/
def packFloatBitsInline (bits : U64) (ret : Bytes) : Res Bytes := packU64Inline bits ret

/-- `UnpackBytesToFloat`, base/util.go:57-60, as a bit pattern. -/
def unpackFloatBits (val : Bytes) : Res U64 := unpackU64 val

/-- Inner loop of `byteSeqEqual`, base/util.go:66-70 (lengths already equal). -/
def byteSeqLoop : Bytes → Bytes → Bool
  | [], _ => true
  | _ :: _, [] => false
  | v :: a, w :: b => if v != w then false else byteSeqLoop a b

/-- `byteSeqEqual`, base/util.go:62-72. -/
def byteSeqEqual (a b : Bytes) : Bool :=
  if a.length != b.length then false else byteSeqLoop a b

end Golearn
